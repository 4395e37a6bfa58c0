import Verif.Model.Bignum
import Verif.Model.Prime

/-! Model of include/caligo/x25519.h. An `ec_value` is its only member, a `bignum<256>`, so a list of eight words. -/

namespace Verif.Model

/-- `ec_value::modulus`, least significant word first: include/caligo/x25519.h:12 -/
def ecModulus : List U32 := [0xFFFFFFED#32, 0xFFFFFFFF#32, 0xFFFFFFFF#32, 0xFFFFFFFF#32, 0xFFFFFFFF#32, 0xFFFFFFFF#32, 0xFFFFFFFF#32, 0x7FFFFFFF#32]

/-- `ec_value::zero` : include/caligo/x25519.h:13 -/
def ecZero : List U32 := List.replicate 8 0#32

/-- `operator!=` : include/caligo/x25519.h:21 -/
def ecNe (a b : List U32) : Bool := !(bnEq a b)

/-- `bool * uint32_t` -/
def boolMul (b : Bool) (x : U32) : U32 := (if b then 1#32 else 0#32) * x

/-- `operator+` : include/caligo/x25519.h:27-34 -/
def ecAdd (a b : List U32) : Out (List U32) := do
  let (overflow, value) := bnAdd a b
  let (ov2, v2) := bnAdd value (bnOfU32 256 (boolMul overflow 38#32))
  let w ← rd v2 0
  wr v2 0 (w + boolMul ov2 38#32)

/-- `operator*(const ec_value&, uint32_t)` : include/caligo/x25519.h:35-40 -/
def ecMulWord (a : List U32) (b : U32) : Out (List U32) := do
  let x := bnMulWord a b
  let x8 ← rd x 8
  let ov : U64 := x8.setWidth 64 * 38#64
  let lo ← bnSlice 256 x 0
  let o ← bnOfInit 256 [(ov >>> 32).setWidth 32, (ov &&& 0xFFFFFFFF#64).setWidth 32]
  ecAdd lo o

/-- `operator*(const ec_value&, const ec_value&)` : include/caligo/x25519.h:41-48 -/
def ecMul (a b : List U32) : Out (List U32) := do
  let x ← bnMul 256 a b
  let upper ← bnSlice 256 x 256
  let lower ← bnSlice 256 x 0
  let u38 := bnMulWord upper 38#32
  let u0 ← bnSlice 256 u38 0
  let u8 ← rd u38 8
  let s ← ecAdd u0 lower
  ecAdd s (bnOfU32 256 (u8 * 38#32))

/-- `operator-` : include/caligo/x25519.h:49-55 -/
def ecSub (a b : List U32) : List U32 :=
  let (uf, v) := bnSub a b
  let (ov1, v2) := bnAdd v (if uf then ecModulus else ecZero)
  let (ov2, v3) := bnAdd v2 (if uf && !ov1 then ecModulus else ecZero)
  (bnAdd v3 (if uf && !ov1 && !ov2 then ecModulus else ecZero)).2

/-- `applyModulus` : include/caligo/x25519.h:71-78 -/
def ecApplyModulus (v : List U32) : List U32 :=
  let (uf, nv) := bnSub v ecModulus
  let (_, nv2) := bnAdd nv (if uf then ecModulus else ecZero)
  let (uf2, nv3) := bnSub nv2 ecModulus
  let (_, nv4) := bnAdd nv3 (if uf2 then ecModulus else ecZero)
  nv4

/-- `operator==` : include/caligo/x25519.h:56-62 -/
def ecEq (a b : List U32) : Bool := bnEq (ecApplyModulus a) (ecApplyModulus b)

/-- `operator<` : include/caligo/x25519.h:63-69 -/
def ecLt (a b : List U32) : Bool := bnLt (ecApplyModulus a) (ecApplyModulus b)

/-- `normalize` : include/caligo/x25519.h:79-85 -/
def ecNormalize (v : List U32) : Out (List U32) := do
  let v ← bnClearBit v 0
  let v ← bnClearBit v 1
  let v ← bnClearBit v 2
  let v ← bnSetBit v 254
  bnClearBit v 255

/-- `square` : include/caligo/x25519.h:90-92 -/
def ecSquare (a : List U32) : Out (List U32) := ecMul a a

/-- `n` calls `.square()` in a row -/
def ecSquareN (n : Nat) (a : List U32) : Out (List U32) := loop n a (fun a _ => ecSquare a)

/-- `inverse` : include/caligo/x25519.h:93-110. The numbers of squarings are those of the written-out chains. -/
def ecInverse (z : List U32) : Out (List U32) := do
  let z2 ← ecSquare z
  let z4 ← ecSquare z2
  let z8 ← ecSquare z4
  let z9 ← ecMul z8 z
  let z11 ← ecMul z9 z2
  let z22 ← ecSquare z11
  let z31 ← ecMul z22 z9
  let z2_10_5 ← ecSquareN 5 z31
  let z2_10_0 ← ecMul z2_10_5 z31
  let z2_15_5 ← ecSquareN 5 z2_10_0
  let z2_15_0 ← ecMul z2_15_5 z31
  let t ← ecSquareN 15 z2_15_0
  let z2_30_0 ← ecMul t z2_15_0
  let t ← ecSquareN 30 z2_30_0
  let z2_60_0 ← ecMul t z2_30_0
  let t ← ecSquareN 60 z2_60_0
  let z2_120_0 ← ecMul t z2_60_0
  let t ← ecSquareN 120 z2_120_0
  let z2_240_0 ← ecMul t z2_120_0
  let t ← ecSquareN 15 z2_240_0
  let t ← ecMul t z2_15_5
  ecMul t z11

/-- `random_private_key` : include/caligo/x25519.h:114-118 -/
def ecRandomKey (s : RandState) : Out (List U32 × RandState) := do
  let (key, s) := bnRandom 256 s
  let key ← ecNormalize key
  return (key, s)

/-- The local variables of `X25519` that live across iterations: include/caligo/x25519.h:124-128 -/
structure LadderState where
  x2 : List U32
  z2 : List U32
  x3 : List U32
  z3 : List U32
  swap : Bool

/-- The loop body of `X25519` : include/caligo/x25519.h:131-148 -/
def ladderBody (k u : List U32) (s : LadderState) (t : Nat) : Out LadderState := do
  let bit ← bnBit k t
  let kt := bit != 0#32
  let swap := s.swap ^^ kt
  let (x2, x3) := bnCtimeSwap swap s.x2 s.x3
  let (z2, z3) := bnCtimeSwap swap s.z2 s.z3
  let swap := kt
  let A ← ecAdd x2 z2
  let AA ← ecSquare A
  let B := ecSub x2 z2
  let BB ← ecSquare B
  let E := ecSub AA BB
  let C ← ecAdd x3 z3
  let D := ecSub x3 z3
  let DA ← ecMul D A
  let CB ← ecMul C B
  let x3 ← ecAdd DA CB
  let x3 ← ecSquare x3
  let z3 ← ecSquare (ecSub DA CB)
  let z3 ← ecMul u z3
  let x2 ← ecMul AA BB
  let z2 ← ecMulWord E 121665#32
  let z2 ← ecAdd AA z2
  let z2 ← ecMul E z2
  return ⟨x2, z2, x3, z3, swap⟩

/-- `X25519` : include/caligo/x25519.h:121-156. The loop variable `t` counts down from 255. -/
def x25519 (k u : List U32) : Out (List U32) := do
  let k ← ecNormalize k
  let one ← bnOfInit 256 [1#32]
  let zero ← bnOfInit 256 [0#32]
  let s ← loop 256 ⟨one, zero, u, one, false⟩ (fun s n => ladderBody k u s (255 - n))
  let (x2, _) := bnCtimeSwap s.swap s.x2 s.x3
  let (z2, _) := bnCtimeSwap s.swap s.z2 s.z3
  let i ← ecInverse z2
  let rv ← ecMul x2 i
  return ecApplyModulus rv

end Verif.Model
