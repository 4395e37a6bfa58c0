import Verif.Model.Leak
import Verif.Model.Prime

/-! The events of constructing a `MontgomeryState`, of the primality test and of `random_prime`, in the way of Model/Leak.lean. -/

namespace Verif.Model

/-! ### include/caligo/bignum.h -/

/-- Loop of `operator==` : include/caligo/bignum.h:215-217 -/
def eqLoopL (i : Nat) (result : U32) : List U32 → List U32 → Leak U32
  | v :: vs, r :: rs => do
    emit (.branch true)
    emit (.addr i)
    emit (.addr i)
    eqLoopL (i + 1) (result ||| (v ^^^ r)) vs rs
  | _, _ => do
    emit (.branch false)
    return result

/-- `operator==` : include/caligo/bignum.h:213-219 -/
def bnEqL (a b : List U32) : Leak Bool := do
  let result ← eqLoopL 0 0#32 a b
  return result == 0#32

/-- `operator<` : include/caligo/bignum.h:220-222 -/
def bnLtL (a b : List U32) : Leak Bool := do
  let p ← bnSubL a b
  return p.1

/-- Loop of `shr1` : include/caligo/bignum.h:87-91. The words come from the most significant one downwards, the index of the next one is one less than the number
of words that are left. It is read twice and written once. -/
def shr1LoopL (bit : U32) : List U32 → Leak (List U32)
  | [] => do
    emit (.branch false)
    return []
  | w :: ws => do
    emit (.branch true)
    emit (.addr ws.length)
    emit (.addr ws.length)
    emit (.addr ws.length)
    let r ← shr1LoopL (w <<< 31) ws
    return ((w >>> 1) ||| bit) :: r

/-- `shr1` : include/caligo/bignum.h:85-92 -/
def bnShr1L (v : List U32) : Leak (List U32) := do
  let r ← shr1LoopL 0#32 v.reverse
  return r.reverse

/-- First loop of `shl_word` : include/caligo/bignum.h:78-80 -/
def shlMoveL (N words : Nat) (v : List U32) (n : Nat) : Leak (List U32) := do
  let w ← rdL v (N - n - words - 1)
  wrL v (N - n - 1) w

/-- Second loop of `shl_word` : include/caligo/bignum.h:81-83 -/
def shlZeroL (N words : Nat) (v : List U32) (n : Nat) : Leak (List U32) := wrL v (N - (N - words + n) - 1) 0#32

/-- `shl_word` : include/caligo/bignum.h:77-84, for at most `N` words. -/
def bnShlWordL (v : List U32) (words : Nat) : Leak (List U32) :=
  let N := v.length
  if words > N then Leak.ofOut (.error .ub) else do
    let v ← loopL (N - words) v (shlMoveL N words)
    loopL words v (shlZeroL N words)

/-- The loop of `neg` : include/caligo/bignum.h:127-131 -/
def negL (i : Nat) : List U32 → Leak (List U32)
  | [] => do
    emit (.branch false)
    return []
  | e :: es => do
    emit (.branch true)
    emit (.addr i)
    let r ← negL (i + 1) es
    return (e ^^^ 0xFFFFFFFF#32) :: r

/-- The `while` loop of `naive_reduce` : include/caligo/bignum.h:98-101, see `normLoop`. -/
def normLoopL : Nat → List U32 → Nat → Leak (Option (List U32 × Nat))
  | 0, s, shift => do
    let top ← rdL s (s.length - 1)
    emit (.branch (top == 0#32))
    return if top = 0#32 then none else some (s, shift)
  | fuel + 1, s, shift => do
    let top ← rdL s (s.length - 1)
    emit (.branch (top == 0#32))
    if top = 0#32 then
      let s ← bnShlWordL s 1
      normLoopL fuel s (shift + 1)
    else return some (s, shift)

/-- The `for` loop of `naive_reduce` : include/caligo/bignum.h:102-106, with the choice between `c` and `c2`. -/
def reduceLoopL : Nat → List U32 → List U32 → Leak (List U32)
  | 0, c, _ => do
    emit (.branch false)
    return c
  | n + 1, c, s => do
    emit (.branch true)
    let p ← bnSubL c s
    emit (.pick p.1)
    let s ← bnShr1L s
    reduceLoopL n (if p.1 then c else p.2) s

/-- `naive_reduce` : include/caligo/bignum.h:93-108 -/
def bnNaiveReduceL (bits k : Nat) (v p : List U32) : Leak (List U32) := do
  let s ← bnConvertL bits k p
  match ← normLoopL s.length s 0 with
  | none => Leak.ofOut (.error .diverges)
  | some (s, shift) =>
    let c ← reduceLoopL (shift * 32 + 1) v s
    bnConvertL k bits c

/-! ### include/caligo/mont.h -/

/-- `r = r*(2-r*A.v[0])` : include/caligo/mont.h:16 -/
def newtonL (A : List U32) (r : U32) (_ : Nat) : Leak U32 := do
  let a ← rdL A 0
  return newtonStep a r

/-- `RecursiveInverseModPower2<N>` : include/caligo/mont.h:6-21; the recursion is resolved by the compiler (`if constexpr`). -/
def recInvL (bits : Nat) (A : List U32) : Leak (List U32) :=
  if h : 1 < bnN bits then do
    let half ← bnSliceL ((bits / 32 + 1) / 2 * 32) A 0
    let r ← recInvL ((bits / 32 + 1) / 2 * 32) half
    let r ← bnConvertL bits ((bits / 32 + 1) / 2 * 32) r
    let rA ← bnMulL bits r A
    let rAs ← bnSliceL bits rA 0
    let two ← bnOfU32L bits 2#32
    let d ← bnSubL two rAs
    let rv ← bnMulL bits r d.2
    bnConvertL bits (2 * bits) rv
  else do
    let a ← rdL A 0
    let r ← loopL 4 (a % 4#32) (newtonL A)
    bnOfU32L bits r
termination_by bits
decreasing_by exact recInv_width_lt h

/-- `MontgomeryState(bignum<K>)` : include/caligo/mont.h:30-43 -/
def montNewL (K : Nat) (N : List U32) : Leak MontState := do
  let inv ← recInvL K N
  let neg ← negL 0 inv
  let one ← bnOfU32L K 1#32
  let Ninv ← bnAddL neg one
  let R ← bnOfU32L (2 * K + 1) 0#32
  let R ← bnSetBitL R (2 * K)
  let R2MN ← bnNaiveReduceL (2 * K + 1) K R N
  let c ← bnConvertL (2 * K) K R2MN
  let R1MN ← redcL K N Ninv.2 c
  let sq ← bnMulL K R2MN R2MN
  let R3MN ← redcL K N Ninv.2 sq
  return ⟨N, Ninv.2, R1MN, R2MN, R3MN⟩

/-! ### include/caligo/random_prime.h -/

/-- The loop of `miller_rabin_one_loop` : include/caligo/random_prime.h:18-25 -/
def mrLoopL (K : Nat) (st : MontState) (nminusone : List U32) : Nat → List U32 → Leak Bool
  | 0, _ => do
    emit (.branch false)
    return false
  | k + 1, x => do
    emit (.branch true)
    let x ← montMulL K st x x
    let xv ← montToL K st x
    let e ← bnEqL xv nminusone
    emit (.branch e)
    if e then return true
    else mrLoopL K st nminusone k x

/-- `miller_rabin_one_loop` : include/caligo/random_prime.h:10-26. The second operand of `||` is evaluated only if the first one is false. -/
def mrOneLoopL (K : Nat) (st : MontState) (d : List U32) (r a : Nat) (nminusone : List U32) : Leak Bool := do
  let bna ← bnOfU32L K (BitVec.ofNat 32 a)
  let b ← montOfL K st bna
  let e ← montToL K st d
  let x ← montExpL K st b e
  let xv ← montToL K st x
  let one ← bnOfU32L K 1#32
  let e1 ← bnEqL xv one
  emit (.branch e1)
  if e1 then return true
  else
    let xv ← montToL K st x
    let e2 ← bnEqL xv nminusone
    emit (.branch e2)
    if e2 then return true
    else mrLoopL K st nminusone (r - 1) x

/-- `while (d.bit(0) == 0) { r++; d.shr1(); }` : include/caligo/random_prime.h:93-96 -/
def oddPartL : Nat → List U32 → Nat → Leak (List U32 × Nat)
  | 0, d, r => do
    let b ← bnBitL d 0
    emit (.branch (b == 0#32))
    if b = 0#32 then Leak.ofOut (.error .diverges) else return (d, r)
  | k + 1, d, r => do
    let b ← bnBitL d 0
    emit (.branch (b == 0#32))
    if b = 0#32 then
      let d ← bnShr1L d
      oddPartL k d (r + 1)
    else return (d, r)

/-- `for (auto& prime : primes)` : include/caligo/random_prime.h:99-103; `i` is the index. -/
def mrBasesL (K : Nat) (st : MontState) (mgv : List U32) (r : Nat) (nminusone : List U32) (i : Nat) : List Nat → Leak Bool
  | [] => do
    emit (.branch false)
    return true
  | p :: ps => do
    emit (.branch true)
    emit (.addr i)
    let is_prime ← mrOneLoopL K st mgv r p nminusone
    emit (.branch is_prime)
    if is_prime then mrBasesL K st mgv r nminusone (i + 1) ps
    else return false

/-- `std::find` : include/caligo/random_prime.h:85; `i` is the index. -/
def findL (K : Nat) (num : List U32) (i : Nat) : List Nat → Leak Bool
  | [] => do
    emit (.branch false)
    return false
  | p :: ps => do
    emit (.branch true)
    emit (.addr i)
    let b ← bnOfU32L K (BitVec.ofNat 32 p)
    let e ← bnEqL num b
    emit (.branch e)
    if e then return true
    else findL K num (i + 1) ps

/-- `miller_rabin_is_probably_prime` after the two early returns : include/caligo/random_prime.h:90-103 -/
def mrBigL (K : Nat) (num : List U32) : Leak Bool := do
  let one ← bnOfU32L K 1#32
  let nminusone ← bnSubL num one
  let p ← oddPartL K nminusone.2 0
  let st ← montNewL K num
  let mgv ← montOfL K st p.1
  mrBasesL K st mgv p.2 nminusone.2 0 primeTable

/-- `miller_rabin_is_probably_prime` : include/caligo/random_prime.h:28-104 -/
def mrPrimeL (K : Nat) (num : List U32) : Leak Bool := do
  let bound ← bnOfU32L K 7920#32
  let small ← bnLtL num bound
  emit (.branch small)
  if small then findL K num 0 primeTable
  else
    let b ← bnBitL num 0
    emit (.branch (b == 0#32))
    if b = 0#32 then return false
    else mrBigL K num

/-! ### include/caligo/random.h -/

/-- `generate_random_value` : include/caligo/random.h:12-35; an entry of `testValues` is read at its index. -/
def randValueL (s : RandState) : Leak (U64 × RandState) := do
  emit (.branch (!s.testValues.isEmpty))
  if s.testValues.isEmpty then return randValue s
  else
    emit (.addr (s.testValues.length - 1))
    return randValue s

/-- The inner loop of `generate_random` : include/caligo/random.h:46-50, 57-61, 68-72. `i` is the index, `left` the number of elements that are not yet filled. -/
def splitValueL (b : Nat) (i : Nat) : (per left : Nat) → U64 → Leak (List (BitVec b))
  | 0, _, _ => do
    emit (.branch false)
    return []
  | _ + 1, 0, _ => do
    emit (.branch true)
    emit (.branch true)
    return []
  | per + 1, left + 1, value => do
    emit (.branch true)
    emit (.branch false)
    emit (.addr i)
    let r ← splitValueL b (i + 1) per left (value >>> b)
    return value.setWidth b :: r

/-- The outer loop of `generate_random` : include/caligo/random.h:43-74 -/
def genRandomL (b per i left : Nat) (s : RandState) : Leak (List (BitVec b) × RandState) :=
  if h : left = 0 ∨ per = 0 then do
    emit (.branch false)
    return ([], s)
  else do
    emit (.branch true)
    let v ← randValueL s
    let w ← splitValueL b i per left v.1
    let r ← genRandomL b per (i + per) (left - per) v.2
    return (w ++ r.1, r.2)
termination_by left
decreasing_by omega

/-- The candidate of one round of `random_prime` : include/caligo/random_prime.h:109-112 -/
def primeCandidateL (K : Nat) (strict : Bool) (s : RandState) : Leak (List U32 × RandState) := do
  let p ← genRandomL 32 2 0 (bnN K) s
  let c ← bnSetBitL p.1 0
  let c ← bnSetBitL c (K - 1)
  if strict then
    if K < 2 then Leak.ofOut (.error .ub)
    else
      let c ← bnSetBitL c (K - 2)
      return (c, p.2)
  else return (c, p.2)

/-- `random_prime` : include/caligo/random_prime.h:106-115, for `fuel` rounds -/
def randomPrimeL (K : Nat) (strict : Bool) : Nat → RandState → Leak (Option (List U32 × RandState))
  | 0, _ => return none
  | fuel + 1, s => do
    let c ← primeCandidateL K strict s
    let ok ← mrPrimeL K c.1
    emit (.branch ok)
    if ok then return some c
    else randomPrimeL K strict fuel c.2

end Verif.Model
