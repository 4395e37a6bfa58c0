import Verif.Base.Mem

/-! Model of include/caligo/bignum.h. An object of type `bignum<Bits>` is the list of its `N = (Bits + 31) / 32` words `v[0] … v[N-1]`.
Functions that depend on the template parameter take it as an argument; the array bound is the length of the list. Where the header can
index outside the array the result is an `Out`. `Bits > 0` is assumed (`uint32_t v[0]` is not C++). -/

namespace Verif.Model

/-- `bignum<Bits>::N` : include/caligo/bignum.h:14 -/
def bnN (bits : Nat) : Nat := (bits + 31) / 32

/-- `bit` : include/caligo/bignum.h:23-25 -/
def bnBit (v : List U32) (n : Nat) : Out U32 := do
  let w ← rd v (n / 32)
  return (w >>> (n % 32)) &&& 1#32

/-- `set_bit` : include/caligo/bignum.h:26-28 (`1 << 31` is the sign bit, converted back to the top bit of the word) -/
def bnSetBit (v : List U32) (n : Nat) : Out (List U32) := do
  let w ← rd v (n / 32)
  wr v (n / 32) (w ||| (1#32 <<< (n % 32)))

/-- `clear_bit` : include/caligo/bignum.h:29-31 (64-bit mask, the result truncated to 32 bits) -/
def bnClearBit (v : List U32) (n : Nat) : Out (List U32) := do
  let w ← rd v (n / 32)
  wr v (n / 32) ((w.setWidth 64 &&& ~~~(1#64 <<< (n % 32))).setWidth 32)

/-- `bignum(uint32_t value = 0)` and `operator=(uint32_t)` : include/caligo/bignum.h:32-42 -/
def bnOfU32 (bits : Nat) (value : U32) : List U32 := (List.replicate (bnN bits) 0#32).set 0 value

/-- `bignum(std::initializer_list<uint32_t>)` : include/caligo/bignum.h:43-50 -/
def bnOfInit (bits : Nat) (list : List U32) : Out (List U32) :=
  loop list.length (List.replicate (bnN bits) 0#32) (fun v n => do
    let i ← rd list n
    wr v (list.length - n - 1) i)

/-- `bignum(std::span<const uint32_t>)` : include/caligo/bignum.h:51-57 -/
def bnOfSpan32 (bits : Nat) (data : List U32) : Out (List U32) :=
  loop (bnN bits) (List.replicate (bnN bits) 0#32) (fun v i => do
    let w ← rd data i
    wr v (bnN bits - i - 1) w)

/-- `bignum(std::span<const uint8_t>)` : include/caligo/bignum.h:58-64. All indices are inside the arrays by the loop condition. -/
def bnOfBytes (bits : Nat) (data : List Byte) : List U32 :=
  (List.range (min data.length (bnN bits * 4))).foldl (fun v n =>
    v.set (n / 4) (v.getD (n / 4) 0#32 ||| ((data.getD n 0#8).setWidth 32 <<< ((8 * n) % 32)))) (List.replicate (bnN bits) 0#32)

/-- `bignum(const bignum<K>&)` : include/caligo/bignum.h:65-76. `min(K, Bits) / 32` words are copied, the rest is zero. -/
def bnConvert (bits k : Nat) (value : List U32) : List U32 :=
  (List.range (bnN bits)).map (fun n => if n < min k bits / 32 then value.getD n 0#32 else 0#32)

/-- `shl_word` : include/caligo/bignum.h:77-84. `N - words` is a `size_t`; for `words > N` it wraps around and the first loop reads outside
the array. -/
def bnShlWord (v : List U32) (words : Nat) : Out (List U32) :=
  let N := v.length
  if words > N then .error .ub else
    let v := (List.range (N - words)).foldl (fun v n => v.set (N - n - 1) (v.getD (N - n - words - 1) 0#32)) v
    .ok ((List.range words).foldl (fun v n => v.set (N - (N - words + n) - 1) 0#32) v)

/-- The loop of `shr1` over the words from the most significant one downwards; `bit` is the carried bit. -/
def shr1Loop (bit : U32) : List U32 → List U32
  | [] => []
  | w :: ws => ((w >>> 1) ||| bit) :: shr1Loop (w <<< 31) ws

/-- `shr1` : include/caligo/bignum.h:85-92 -/
def bnShr1 (v : List U32) : List U32 := (shr1Loop 0#32 v.reverse).reverse

/-- Loop of `add` : include/caligo/bignum.h:154-158 -/
def addLoop (t : U64) : List U32 → List U32 → U64 × List U32
  | v :: vs, r :: rs =>
    let t := t + (v.setWidth 64 + r.setWidth 64)
    let (t', ws) := addLoop (t >>> 32) vs rs
    (t', (t &&& 0xffffffff#64).setWidth 32 :: ws)
  | _, _ => (t, [])

/-- `add` and `operator+` : include/caligo/bignum.h:152-160,170-175 -/
def bnAdd (a b : List U32) : Bool × List U32 :=
  let (t, ws) := addLoop 0#64 a b
  (t != 0#64, ws)

/-- Loop of `sub` : include/caligo/bignum.h:163-167 -/
def subLoop (t : U64) : List U32 → List U32 → U64 × List U32
  | v :: vs, r :: rs =>
    let t := v.setWidth 64 - r.setWidth 64 - (if t != 0#64 then 1#64 else 0#64)
    let (t', ws) := subLoop (t >>> 32) vs rs
    (t', (t &&& 0xffffffff#64).setWidth 32 :: ws)
  | _, _ => (t, [])

/-- `sub` and `operator-` : include/caligo/bignum.h:161-169,207-212 -/
def bnSub (a b : List U32) : Bool × List U32 :=
  let (t, ws) := subLoop 0#64 a b
  (t != 0#64, ws)

/-- `while (s.v[(Bits + 31)/32 - 1] == 0) { s.shl_word(1); shift++; }` : include/caligo/bignum.h:98-101. The loop is run `fuel` times at most;
`none` when it is still running then. Each pass moves the words up by one and fills with zero, so a loop that runs `N` times has cleared
`s` and never ends. -/
def normLoop : Nat → List U32 → Nat → Out (Option (List U32 × Nat))
  | 0, s, shift => do
    let top ← rd s (s.length - 1)
    return if top = 0#32 then none else some (s, shift)
  | fuel + 1, s, shift => do
    let top ← rd s (s.length - 1)
    if top = 0#32 then
      let s ← bnShlWord s 1
      normLoop fuel s (shift + 1)
    else return some (s, shift)

/-- `for (n = 0; n <= shift * 32; n++)` loop of `naive_reduce` : include/caligo/bignum.h:102-106 -/
def reduceLoop : Nat → List U32 → List U32 → List U32
  | 0, c, _ => c
  | n + 1, c, s =>
    let (overflow, c2) := bnSub c s
    reduceLoop n (if overflow then c else c2) (bnShr1 s)

/-- `bignum<Bits>::naive_reduce<K>` : include/caligo/bignum.h:93-108; the result is converted to `bignum<K>`. -/
def bnNaiveReduce (bits k : Nat) (v p : List U32) : Out (List U32) := do
  let s := bnConvert bits k p
  match ← normLoop s.length s 0 with
  | none => .error .diverges
  | some (s, shift) => return bnConvert k bits (reduceLoop (shift * 32 + 1) v s)

/-- `slice<K>(start)` : include/caligo/bignum.h:109-116. `n * 32 < K` exactly for `n < (K + 31) / 32`. -/
def bnSlice (k : Nat) (v : List U32) (start : Nat) : Out (List U32) :=
  loop (bnN k) (List.replicate (bnN k) 0#32) (fun rv n => do
    let w ← rd v (n + start / 32)
    wr rv n w)

/-- `as_bytes` : include/caligo/bignum.h:117-126 -/
def bnAsBytes (v : List U32) : List Byte :=
  v.flatMap (fun w => [(w &&& 0xFF#32).setWidth 8, ((w >>> 8) &&& 0xFF#32).setWidth 8, ((w >>> 16) &&& 0xFF#32).setWidth 8,
    ((w >>> 24) &&& 0xFF#32).setWidth 8])

/-- `neg` : include/caligo/bignum.h:127-131 -/
def bnNeg (v : List U32) : List U32 := v.map (fun e => e ^^^ 0xFFFFFFFF#32)

/-- `operator^`, `operator^=` : include/caligo/bignum.h:132-145 -/
def bnXor (a b : List U32) : List U32 := List.zipWith (· ^^^ ·) a b

/-- `operator&=` : include/caligo/bignum.h:146-151 -/
def bnAnd (a b : List U32) : List U32 := List.zipWith (· &&& ·) a b

/-- Loop of `operator*(const bignum&, uint32_t)` : include/caligo/bignum.h:180-186, including the final word. -/
def mulWordLoop (t : U64) (b : U32) : List U32 → List U32
  | [] => [(t &&& 0xFFFFFFFF#64).setWidth 32]
  | a :: as =>
    let t := t + a.setWidth 64 * b.setWidth 64
    (t &&& 0xFFFFFFFF#64).setWidth 32 :: mulWordLoop (t >>> 32) b as

/-- `operator*(const bignum&, uint32_t)` : include/caligo/bignum.h:177-188. The result type `bignum<Bits+32>` has `N + 1` words. -/
def bnMulWord (a : List U32) (b : U32) : List U32 := mulWordLoop 0#64 b a

/-- `operator*(const bignum&, const bignum&)` : include/caligo/bignum.h:189-202, on a result array of `(2*Bits + 31)/32` words. -/
def bnMul (bits : Nat) (a b : List U32) : Out (List U32) :=
  let N := bnN bits
  loop N (List.replicate (bnN (2 * bits)) 0#32) (fun x i => do
    let (x, t) ← loop N (x, 0#64) (fun (x, t) j => do
      let ai ← rd a i
      let bj ← rd b j
      let xij ← rd x (i + j)
      let t := t + (ai.setWidth 64 * bj.setWidth 64 + xij.setWidth 64)
      let x ← wr x (i + j) ((t &&& 0xFFFFFFFF#64).setWidth 32)
      return (x, t >>> 32))
    wr x (i + N) ((t &&& 0xFFFFFFFF#64).setWidth 32))

/-- `square` : include/caligo/bignum.h:203-206 -/
def bnSquare (bits : Nat) (a : List U32) : Out (List U32) := bnMul bits a a

/-- `operator==` : include/caligo/bignum.h:213-219 -/
def bnEq (a b : List U32) : Bool := (List.zipWith (· ^^^ ·) a b).foldl (· ||| ·) 0#32 == 0#32

/-- `operator<` : include/caligo/bignum.h:220-222 -/
def bnLt (a b : List U32) : Bool := (bnSub a b).1

/-- `ctime_swap` : include/caligo/bignum.h:223-231 -/
def bnCtimeSwap (doswap : Bool) (a b : List U32) : List U32 × List U32 :=
  let ones := List.replicate a.length (0xffffffff#32 * (if doswap then 1#32 else 0#32))
  let ones := bnAnd ones (bnXor a b)
  (bnXor a ones, bnXor b ones)

/-- `%X` digit -/
def hexUpper (n : Nat) : Byte := if n < 10 then BitVec.ofNat 8 (48 + n) else BitVec.ofNat 8 (55 + n)

/-- `sprintf("%08X ", w)` : include/caligo/bignum.h:236 -/
def fmt08X (w : U32) : List Byte :=
  [28, 24, 20, 16, 12, 8, 4, 0].map (fun s => hexUpper ((w >>> s).toNat % 16)) ++ [0x20#8]

/-- `to_string` : include/caligo/bignum.h:232-240. The buffer of `10*N` characters holds the `9*N` characters and the terminator. The final
space is replaced by the terminator. -/
def bnToString (v : List U32) : List Byte := (v.reverse.flatMap fmt08X).dropLast

end Verif.Model
