import Verif.Model.X25519
import Verif.Model.Rsa

/-! What an observer of the execution sees. README.md:24 expects all implementations to be side-channel free. The functions here are those of the other model files
with the events of the source text that such an observer may see: the outcome of every branch and loop condition, the index of every array access, and the outcome
of every condition that only chooses a value (`?:`, and the `&&` in front of it), which a compiler may or may not turn into a branch. `Proof.Leak` shows that they
compute what the functions of the other files compute. Copies of whole objects, arithmetic on words and conversions to `bool` give no event. Simplification: the
time that single instructions take is taken not to depend on their operands. -/

namespace Verif.Model

/-- An event. -/
inductive Obs where
  /-- a branch or loop condition -/
  | branch (b : Bool)
  /-- an array access -/
  | addr (n : Nat)
  /-- a condition that chooses a value -/
  | pick (b : Bool)
deriving DecidableEq, Repr

/-- A computation with its events. -/
def Leak (α : Type) : Type := Out α × List Obs

namespace Leak

/-- the result -/
def res {α : Type} (x : Leak α) : Out α := x.1

/-- the events in order -/
def trace {α : Type} (x : Leak α) : List Obs := x.2

/-- A result without events. -/
def ofOut {α : Type} (x : Out α) : Leak α := (x, [])

/-- A sequence; nothing happens after a fault. -/
def seq {α β : Type} (x : Leak α) (f : α → Leak β) : Leak β :=
  match x.1 with
  | .ok a => ((f a).1, x.2 ++ (f a).2)
  | .error e => (.error e, x.2)

instance : Monad Leak where
  pure a := (.ok a, [])
  bind := seq

end Leak

/-- One event. -/
def emit (o : Obs) : Leak Unit := (.ok (), [o])

/-- `v[i]` read -/
def rdL {α : Type} (v : List α) (i : Nat) : Leak α := (rd v i, [.addr i])

/-- `v[i]` written -/
def wrL {α : Type} (v : List α) (i : Nat) (x : α) : Leak (List α) := (wr v i x, [.addr i])

/-- The passes of a counted loop. -/
def passesL {σ : Type} (n : Nat) (s : σ) (body : σ → Nat → Leak σ) : Leak σ :=
  match n with
  | 0 => pure s
  | n + 1 => do
    let s ← passesL n s body
    emit (.branch true)
    body s n

/-- A counted loop: the condition is evaluated before every pass and once at the end. -/
def loopL {σ : Type} (n : Nat) (s : σ) (body : σ → Nat → Leak σ) : Leak σ := do
  let s ← passesL n s body
  emit (.branch false)
  return s

/-! ### include/caligo/bignum.h -/

/-- `bit` : include/caligo/bignum.h:23-25 -/
def bnBitL (v : List U32) (n : Nat) : Leak U32 := do
  let w ← rdL v (n / 32)
  return (w >>> (n % 32)) &&& 1#32

/-- `set_bit` : include/caligo/bignum.h:26-28 -/
def bnSetBitL (v : List U32) (n : Nat) : Leak (List U32) := do
  let w ← rdL v (n / 32)
  wrL v (n / 32) (w ||| (1#32 <<< (n % 32)))

/-- `clear_bit` : include/caligo/bignum.h:29-31 -/
def bnClearBitL (v : List U32) (n : Nat) : Leak (List U32) := do
  let w ← rdL v (n / 32)
  wrL v (n / 32) ((w.setWidth 64 &&& ~~~(1#64 <<< (n % 32))).setWidth 32)

/-- `bignum(uint32_t value = 0)` : include/caligo/bignum.h:37-42 -/
def bnOfU32L (bits : Nat) (value : U32) : Leak (List U32) := do
  emit (.addr 0)
  return bnOfU32 bits value

/-- `bignum(std::initializer_list<uint32_t>)` : include/caligo/bignum.h:43-50 -/
def bnOfInitL (bits : Nat) (list : List U32) : Leak (List U32) :=
  loopL list.length (List.replicate (bnN bits) 0#32) (fun v n => do
    let i ← rdL list n
    wrL v (list.length - n - 1) i)

/-- Both loops of `bignum(const bignum<K>&)` : include/caligo/bignum.h:69-75. The first `k` words are read and written, the other ones are set to zero. -/
def convertL (value : List U32) (k : Nat) : Nat → Leak (List U32)
  | 0 => return []
  | n + 1 => do
    let ws ← convertL value k n
    emit (.branch true)
    if n < k then
      emit (.addr n)
      emit (.addr n)
      return ws ++ [value.getD n 0#32]
    else
      emit (.addr n)
      return ws ++ [0#32]

/-- `bignum(const bignum<K>&)` : include/caligo/bignum.h:65-76. The end of each of the two loops is noted at the end. -/
def bnConvertL (bits k : Nat) (value : List U32) : Leak (List U32) := do
  let ws ← convertL value (min k bits / 32) (bnN bits)
  emit (.branch false)
  emit (.branch false)
  return ws

/-- Loop of `add` : include/caligo/bignum.h:154-158; `i` is the index. -/
def addLoopL (i : Nat) (t : U64) : List U32 → List U32 → Leak (U64 × List U32)
  | v :: vs, r :: rs => do
    emit (.branch true)
    emit (.addr i)
    emit (.addr i)
    let t := t + (v.setWidth 64 + r.setWidth 64)
    emit (.addr i)
    let p ← addLoopL (i + 1) (t >>> 32) vs rs
    return (p.1, (t &&& 0xffffffff#64).setWidth 32 :: p.2)
  | _, _ => do
    emit (.branch false)
    return (t, [])

/-- `add` and `operator+` : include/caligo/bignum.h:152-160,170-175 -/
def bnAddL (a b : List U32) : Leak (Bool × List U32) := do
  let p ← addLoopL 0 0#64 a b
  return (p.1 != 0#64, p.2)

/-- Loop of `sub` : include/caligo/bignum.h:163-167, with the choice `t ? 1 : 0`. -/
def subLoopL (i : Nat) (t : U64) : List U32 → List U32 → Leak (U64 × List U32)
  | v :: vs, r :: rs => do
    emit (.branch true)
    emit (.addr i)
    emit (.addr i)
    emit (.pick (t != 0#64))
    let t := v.setWidth 64 - r.setWidth 64 - (if t != 0#64 then 1#64 else 0#64)
    emit (.addr i)
    let p ← subLoopL (i + 1) (t >>> 32) vs rs
    return (p.1, (t &&& 0xffffffff#64).setWidth 32 :: p.2)
  | _, _ => do
    emit (.branch false)
    return (t, [])

/-- `sub` and `operator-` : include/caligo/bignum.h:161-169,207-212 -/
def bnSubL (a b : List U32) : Leak (Bool × List U32) := do
  let p ← subLoopL 0 0#64 a b
  return (p.1 != 0#64, p.2)

/-- `slice<K>(start)` : include/caligo/bignum.h:109-116 -/
def bnSliceL (k : Nat) (v : List U32) (start : Nat) : Leak (List U32) :=
  loopL (bnN k) (List.replicate (bnN k) 0#32) (fun rv n => do
    let w ← rdL v (n + start / 32)
    wrL rv n w)

/-- A loop that combines the words of two objects: `operator^`, `operator^=`, `operator&=` : include/caligo/bignum.h:132-151 -/
def zipL (i : Nat) (f : U32 → U32 → U32) : List U32 → List U32 → Leak (List U32)
  | v :: vs, r :: rs => do
    emit (.branch true)
    emit (.addr i)
    emit (.addr i)
    emit (.addr i)
    let ws ← zipL (i + 1) f vs rs
    return f v r :: ws
  | _, _ => do
    emit (.branch false)
    return []

/-- Loop of `operator*(const bignum&, uint32_t)` : include/caligo/bignum.h:181-186 -/
def mulWordLoopL (i : Nat) (t : U64) (b : U32) : List U32 → Leak (List U32)
  | [] => do
    emit (.branch false)
    emit (.addr i)
    return [(t &&& 0xFFFFFFFF#64).setWidth 32]
  | a :: as => do
    emit (.branch true)
    emit (.addr i)
    let t := t + a.setWidth 64 * b.setWidth 64
    emit (.addr i)
    let ws ← mulWordLoopL (i + 1) (t >>> 32) b as
    return (t &&& 0xFFFFFFFF#64).setWidth 32 :: ws

/-- `operator*(const bignum&, uint32_t)` : include/caligo/bignum.h:177-188 -/
def bnMulWordL (a : List U32) (b : U32) : Leak (List U32) := mulWordLoopL 0 0#64 b a

/-- `operator*(const bignum&, const bignum&)` : include/caligo/bignum.h:189-202 -/
def bnMulL (bits : Nat) (a b : List U32) : Leak (List U32) :=
  let N := bnN bits
  loopL N (List.replicate (bnN (2 * bits)) 0#32) (fun x i => do
    let p ← loopL N (x, 0#64) (fun p j => do
      let ai ← rdL a i
      let bj ← rdL b j
      let xij ← rdL p.1 (i + j)
      let t := p.2 + (ai.setWidth 64 * bj.setWidth 64 + xij.setWidth 64)
      let x ← wrL p.1 (i + j) ((t &&& 0xFFFFFFFF#64).setWidth 32)
      return (x, t >>> 32))
    wrL p.1 (i + N) ((p.2 &&& 0xFFFFFFFF#64).setWidth 32))

/-- The first loop of `ctime_swap` : include/caligo/bignum.h:225-227 -/
def onesL (i : Nat) (doswap : Bool) : List U32 → Leak (List U32)
  | [] => do
    emit (.branch false)
    return []
  | _ :: as => do
    emit (.branch true)
    emit (.addr i)
    let ws ← onesL (i + 1) doswap as
    return (0xffffffff#32 * (if doswap then 1#32 else 0#32)) :: ws

/-- `ctime_swap` : include/caligo/bignum.h:223-231; the factor `doswap` is an arithmetic conversion. -/
def bnCtimeSwapL (doswap : Bool) (a b : List U32) : Leak (List U32 × List U32) := do
  let ones ← onesL 0 doswap a
  let x ← zipL 0 (· ^^^ ·) a b
  let ones ← zipL 0 (· &&& ·) ones x
  let a' ← zipL 0 (· ^^^ ·) a ones
  let b' ← zipL 0 (· ^^^ ·) b ones
  return (a', b')

/-! ### include/caligo/x25519.h -/

/-- `operator+` : include/caligo/x25519.h:27-34 -/
def ecAddL (a b : List U32) : Leak (List U32) := do
  let p ← bnAddL a b
  let c ← bnOfU32L 256 (boolMul p.1 38#32)
  let q ← bnAddL p.2 c
  let w ← rdL q.2 0
  wrL q.2 0 (w + boolMul q.1 38#32)

/-- `operator*(const ec_value&, uint32_t)` : include/caligo/x25519.h:35-40 -/
def ecMulWordL (a : List U32) (b : U32) : Leak (List U32) := do
  let x ← bnMulWordL a b
  let x8 ← rdL x 8
  let ov : U64 := x8.setWidth 64 * 38#64
  let lo ← bnSliceL 256 x 0
  let o ← bnOfInitL 256 [(ov >>> 32).setWidth 32, (ov &&& 0xFFFFFFFF#64).setWidth 32]
  ecAddL lo o

/-- `operator*(const ec_value&, const ec_value&)` : include/caligo/x25519.h:41-48 -/
def ecMulL (a b : List U32) : Leak (List U32) := do
  let x ← bnMulL 256 a b
  let upper ← bnSliceL 256 x 256
  let lower ← bnSliceL 256 x 0
  let u38 ← bnMulWordL upper 38#32
  let u0 ← bnSliceL 256 u38 0
  let u8 ← rdL u38 8
  let s ← ecAddL u0 lower
  let c ← bnOfU32L 256 (u8 * 38#32)
  ecAddL s c

/-- `operator-` : include/caligo/x25519.h:49-55, with the three choices between `modulus` and `zero`. -/
def ecSubL (a b : List U32) : Leak (List U32) := do
  let p ← bnSubL a b
  emit (.pick p.1)
  let q ← bnAddL p.2 (if p.1 then ecModulus else ecZero)
  emit (.pick (p.1 && !q.1))
  let r ← bnAddL q.2 (if p.1 && !q.1 then ecModulus else ecZero)
  emit (.pick (p.1 && !q.1 && !r.1))
  let s ← bnAddL r.2 (if p.1 && !q.1 && !r.1 then ecModulus else ecZero)
  return s.2

/-- `applyModulus` : include/caligo/x25519.h:71-78 -/
def ecApplyModulusL (v : List U32) : Leak (List U32) := do
  let p ← bnSubL v ecModulus
  emit (.pick p.1)
  let q ← bnAddL p.2 (if p.1 then ecModulus else ecZero)
  let r ← bnSubL q.2 ecModulus
  emit (.pick r.1)
  let s ← bnAddL r.2 (if r.1 then ecModulus else ecZero)
  return s.2

/-- `normalize` : include/caligo/x25519.h:79-85 -/
def ecNormalizeL (v : List U32) : Leak (List U32) := do
  let v ← bnClearBitL v 0
  let v ← bnClearBitL v 1
  let v ← bnClearBitL v 2
  let v ← bnSetBitL v 254
  bnClearBitL v 255

/-- `square` : include/caligo/x25519.h:90-92 -/
def ecSquareL (a : List U32) : Leak (List U32) := ecMulL a a

/-- `n` calls `.square()` in a row, written out in the source: no loop conditions. -/
def ecSquareNL : Nat → List U32 → Leak (List U32)
  | 0, a => return a
  | n + 1, a => do
    let b ← ecSquareNL n a
    ecSquareL b

/-- `inverse` : include/caligo/x25519.h:93-110 -/
def ecInverseL (z : List U32) : Leak (List U32) := do
  let z2 ← ecSquareL z
  let z4 ← ecSquareL z2
  let z8 ← ecSquareL z4
  let z9 ← ecMulL z8 z
  let z11 ← ecMulL z9 z2
  let z22 ← ecSquareL z11
  let z31 ← ecMulL z22 z9
  let z2_10_5 ← ecSquareNL 5 z31
  let z2_10_0 ← ecMulL z2_10_5 z31
  let z2_15_5 ← ecSquareNL 5 z2_10_0
  let z2_15_0 ← ecMulL z2_15_5 z31
  let t ← ecSquareNL 15 z2_15_0
  let z2_30_0 ← ecMulL t z2_15_0
  let t ← ecSquareNL 30 z2_30_0
  let z2_60_0 ← ecMulL t z2_30_0
  let t ← ecSquareNL 60 z2_60_0
  let z2_120_0 ← ecMulL t z2_60_0
  let t ← ecSquareNL 120 z2_120_0
  let z2_240_0 ← ecMulL t z2_120_0
  let t ← ecSquareNL 15 z2_240_0
  let t ← ecMulL t z2_15_5
  ecMulL t z11

/-- The loop body of `X25519` : include/caligo/x25519.h:131-148 -/
def ladderBodyL (k u : List U32) (s : LadderState) (t : Nat) : Leak LadderState := do
  let bit ← bnBitL k t
  let kt := bit != 0#32
  let swap := s.swap ^^ kt
  let p ← bnCtimeSwapL swap s.x2 s.x3
  let q ← bnCtimeSwapL swap s.z2 s.z3
  let A ← ecAddL p.1 q.1
  let AA ← ecSquareL A
  let B ← ecSubL p.1 q.1
  let BB ← ecSquareL B
  let E ← ecSubL AA BB
  let C ← ecAddL p.2 q.2
  let D ← ecSubL p.2 q.2
  let DA ← ecMulL D A
  let CB ← ecMulL C B
  let x3 ← ecAddL DA CB
  let x3 ← ecSquareL x3
  let d ← ecSubL DA CB
  let z3 ← ecSquareL d
  let z3 ← ecMulL u z3
  let x2 ← ecMulL AA BB
  let z2 ← ecMulWordL E 121665#32
  let z2 ← ecAddL AA z2
  let z2 ← ecMulL E z2
  return ⟨x2, z2, x3, z3, kt⟩

/-- `X25519` : include/caligo/x25519.h:121-156 -/
def x25519L (k u : List U32) : Leak (List U32) := do
  let k ← ecNormalizeL k
  let one ← bnOfInitL 256 [1#32]
  let zero ← bnOfInitL 256 [0#32]
  let s ← loopL 256 ⟨one, zero, u, one, false⟩ (fun s n => ladderBodyL k u s (255 - n))
  let p ← bnCtimeSwapL s.swap s.x2 s.x3
  let q ← bnCtimeSwapL s.swap s.z2 s.z3
  let i ← ecInverseL q.1
  let rv ← ecMulL p.1 i
  ecApplyModulusL rv

/-! ### include/caligo/mont.h, include/caligo/rsa.h -/

/-- `MontgomeryState::REDC` : include/caligo/mont.h:44-52, with the choice between `t2` and `t`. -/
def redcL (K : Nat) (N Ninv : List U32) (v : List U32) : Leak (List U32) := do
  let v0 ← bnSliceL K v 0
  let vninv ← bnMulL K v0 Ninv
  let m ← bnSliceL K vninv 0
  let mn ← bnMulL K m N
  let vmn ← bnAddL v mn
  let t ← bnSliceL K vmn.2 K
  let t2 ← bnSubL t N
  emit (.pick vmn.1)
  return if vmn.1 then t2.2 else t

/-- `MontgomeryValue(state, in)` : include/caligo/mont.h:60-64 -/
def montOfL (K : Nat) (st : MontState) (x : List U32) : Leak (List U32) := do
  let p ← bnMulL K x st.R2MN
  redcL K st.N st.Ninv p

/-- `operator*` : include/caligo/mont.h:70-74 -/
def montMulL (K : Nat) (st : MontState) (a b : List U32) : Leak (List U32) := do
  let p ← bnMulL K b a
  redcL K st.N st.Ninv p

/-- `square` : include/caligo/mont.h:75-79 -/
def montSquareL (K : Nat) (st : MontState) (a : List U32) : Leak (List U32) := do
  let p ← bnMulL K a a
  redcL K st.N st.Ninv p

/-- One pass of the loop of `exp(bignum<K>)` : include/caligo/mont.h:93-96, with the choice between `b` and `one`. -/
def expPassL (K : Nat) (st : MontState) (one exponent : List U32) (s : List U32 × List U32) (n : Nat) : Leak (List U32 × List U32) := do
  let e ← bnBitL exponent n
  emit (.pick (e != 0#32))
  let v ← montMulL K st s.1 (if e != 0#32 then s.2 else one)
  let b ← montSquareL K st s.2
  return (v, b)

/-- `exp(bignum<K>)` : include/caligo/mont.h:89-98 -/
def montExpL (K : Nat) (st : MontState) (a exponent : List U32) : Leak (List U32) := do
  let c ← bnOfU32L K 1#32
  let one ← montOfL K st c
  let s ← loopL K (one, a) (expPassL K st one exponent)
  return s.1

/-- `operator bignum<K>()` : include/caligo/mont.h:99-101 -/
def montToL (K : Nat) (st : MontState) (a : List U32) : Leak (List U32) := do
  let c ← bnConvertL (2 * K) K a
  redcL K st.N st.Ninv c

/-- `rsadp` : include/caligo/rsa.h:142-144 -/
def rsadpL (N : Nat) (k : RsaPriv) (m : List U32) : Leak (List U32) := do
  let v ← montOfL N k.s m
  let x ← montExpL N k.s v k.d
  montToL N k.s x

end Verif.Model
