import Verif.Model.Bignum

/-! Model of include/caligo/mont.h. -/

namespace Verif.Model

theorem recInv_width_lt {bits : Nat} (h : 1 < bnN bits) : (bits / 32 + 1) / 2 * 32 < bits := by
  unfold bnN at h
  rcases Nat.lt_or_ge (bits / 32) 2 with h1 | h1
  · have : bits / 32 = 1 := by omega
    rw [this]; omega
  · omega

/-- `r = r*(2-r*A.v[0])` in `uint32_t` : include/caligo/mont.h:16 -/
def newtonStep (a r : U32) : U32 := r * (2#32 - r * a)

/-- `RecursiveInverseModPower2<N>` : include/caligo/mont.h:6-21 -/
def recInv (bits : Nat) (A : List U32) : Out (List U32) :=
  if h : 1 < bnN bits then do
    let half ← bnSlice ((bits / 32 + 1) / 2 * 32) A 0
    let r ← recInv ((bits / 32 + 1) / 2 * 32) half
    let r := bnConvert bits ((bits / 32 + 1) / 2 * 32) r
    let rA ← bnMul bits r A
    let rAs ← bnSlice bits rA 0
    let rv ← bnMul bits r (bnSub (bnOfU32 bits 2#32) rAs).2
    return bnConvert bits (2 * bits) rv
  else do
    let a ← rd A 0
    let r := newtonStep a (newtonStep a (newtonStep a (newtonStep a (a % 4#32))))
    return bnOfU32 bits r
termination_by bits
decreasing_by exact recInv_width_lt h

/-- `MontgomeryState<K>` : include/caligo/mont.h:24-29 -/
structure MontState where
  N : List U32
  Ninv : List U32
  R1MN : List U32
  R2MN : List U32
  R3MN : List U32

/-- `MontgomeryState::REDC` : include/caligo/mont.h:44-52. It uses the members `N` and `Ninv` only. -/
def redc (K : Nat) (N Ninv : List U32) (v : List U32) : Out (List U32) := do
  let v0 ← bnSlice K v 0
  let vninv ← bnMul K v0 Ninv
  let m ← bnSlice K vninv 0
  let mn ← bnMul K m N
  let vmn := bnAdd v mn
  let t ← bnSlice K vmn.2 K
  let t2 := (bnSub t N).2
  return if vmn.1 then t2 else t

/-- `MontgomeryState(bignum<K>)` : include/caligo/mont.h:30-43 -/
def montNew (K : Nat) (N : List U32) : Out MontState := do
  let inv ← recInv K N
  let Ninv := (bnAdd (bnNeg inv) (bnOfU32 K 1#32)).2
  let R ← bnSetBit (bnOfU32 (2 * K + 1) 0#32) (2 * K)
  let R2MN ← bnNaiveReduce (2 * K + 1) K R N
  let R1MN ← redc K N Ninv (bnConvert (2 * K) K R2MN)
  let sq ← bnMul K R2MN R2MN
  let R3MN ← redc K N Ninv sq
  return ⟨N, Ninv, R1MN, R2MN, R3MN⟩

/-- `MontgomeryValue(state, in)` : include/caligo/mont.h:60-64. A `MontgomeryValue` is its member `value`; the `state` pointer is passed
to the operations. -/
def montOf (K : Nat) (st : MontState) (x : List U32) : Out (List U32) := do
  let p ← bnMul K x st.R2MN
  redc K st.N st.Ninv p

/-- `operator+` : include/caligo/mont.h:65-69 -/
def montAdd (a b : List U32) : List U32 := (bnAdd a b).2

/-- `operator*` : include/caligo/mont.h:70-74 -/
def montMul (K : Nat) (st : MontState) (a b : List U32) : Out (List U32) := do
  let p ← bnMul K b a
  redc K st.N st.Ninv p

/-- `square` : include/caligo/mont.h:75-79 -/
def montSquare (K : Nat) (st : MontState) (a : List U32) : Out (List U32) := do
  let p ← bnSquare K a
  redc K st.N st.Ninv p

/-- `exp(uint32_t)` : include/caligo/mont.h:80-88. The exponent is ignored. -/
def montExp32 (K : Nat) (st : MontState) (a : List U32) (_exponent : U32) : Out (List U32) := do
  let _v ← montOf K st (bnOfU32 K 1#32)
  let b ← loop 16 a (fun b _ => montSquare K st b)
  montMul K st b a

/-- `exp(bignum<K>)` : include/caligo/mont.h:89-98 -/
def montExp (K : Nat) (st : MontState) (a exponent : List U32) : Out (List U32) := do
  let one ← montOf K st (bnOfU32 K 1#32)
  let (v, _) ← loop K (one, a) (fun (v, b) n => do
    let e ← bnBit exponent n
    let v ← montMul K st v (if e != 0#32 then b else one)
    let b ← montSquare K st b
    return (v, b))
  return v

/-- `operator bignum<K>()` : include/caligo/mont.h:99-101; `value` is converted to `bignum<2*K>`. -/
def montTo (K : Nat) (st : MontState) (a : List U32) : Out (List U32) := redc K st.N st.Ninv (bnConvert (2 * K) K a)

end Verif.Model
