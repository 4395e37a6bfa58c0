import Verif.Spec.BlockHash
import Mathlib.Analysis.SpecialFunctions.Trigonometric.Basic

/-! RFC 1321, written from the RFC, independent of the model. -/

namespace Verif.Spec

/-- Value of a byte string, least significant byte first. -/
def leOctets (l : List Byte) : Nat := l.foldr (fun b a => b.toNat + 256 * a) 0

/-- `X[k]`: word `k` of a 16-word block, low-order byte first (section 2). -/
def md5X (block : List Byte) (k : Nat) : U32 := BitVec.ofNat 32 (leOctets ((block.drop (4 * k)).take 4))

/-- Section 3.4: `F(X,Y,Z) = XY v not(X) Z` -/
def md5F (x y z : U32) : U32 := (x &&& y) ||| (~~~x &&& z)
/-- Section 3.4: `G(X,Y,Z) = XZ v Y not(Z)` -/
def md5G (x y z : U32) : U32 := (x &&& z) ||| (y &&& ~~~z)
/-- Section 3.4: `H(X,Y,Z) = X xor Y xor Z` -/
def md5H (x y z : U32) : U32 := x ^^^ y ^^^ z
/-- Section 3.4: `I(X,Y,Z) = Y xor (X v not(Z))` -/
def md5I (x y z : U32) : U32 := y ^^^ (x ||| ~~~z)

/-- Section 3.4: `T[i]`, for `1 ≤ i ≤ 64`, is the integer part of `4294967296 * abs(sin(i))`, `i` in radians. -/
noncomputable def md5T (i : Nat) : U32 := BitVec.ofNat 32 ⌊4294967296 * |Real.sin i|⌋₊

/-- Message word used by operation `i` (counted from 0): the `k` column of the four rounds in section 3.4. -/
def md5k : List Nat := [
  0, 1, 2, 3, 4, 5, 6, 7, 8, 9, 10, 11, 12, 13, 14, 15,
  1, 6, 11, 0, 5, 10, 15, 4, 9, 14, 3, 8, 13, 2, 7, 12,
  5, 8, 11, 14, 1, 4, 7, 10, 13, 0, 3, 6, 9, 12, 15, 2,
  0, 7, 14, 5, 12, 3, 10, 1, 8, 15, 6, 13, 4, 11, 2, 9]

/-- Rotation of operation `i`: the `s` column of the four rounds; within a round it has period 4. -/
def md5s (i : Nat) : Nat :=
  (([[7, 12, 17, 22], [5, 9, 14, 20], [4, 11, 16, 23], [6, 10, 15, 21]] : List (List Nat)).getD (i / 16) []).getD (i % 4) 0

/-- Registers A, B, C, D. -/
structure Md5Regs where
  (A B C D : U32)

/-- `a = b + ((a + f(b,c,d) + X[k] + T[i]) <<< s)` where operation number `i` counts from 0 here and from 1 in `T`. -/
noncomputable def md5Op (block : List Byte) (i : Nat) (a b c d : U32) : U32 :=
  let f := if i < 16 then md5F b c d else if i < 32 then md5G b c d else if i < 48 then md5H b c d else md5I b c d
  b + (a + f + md5X block (md5k.getD i 0) + md5T (i + 1)).rotateLeft (md5s i)

/-- The operations are applied to the registers in the orders ABCD, DABC, CDAB, BCDA cyclically (section 3.4). -/
noncomputable def md5Do (block : List Byte) (i : Nat) (r : Md5Regs) : Md5Regs :=
  if i % 4 = 0 then { r with A := md5Op block i r.A r.B r.C r.D }
  else if i % 4 = 1 then { r with D := md5Op block i r.D r.A r.B r.C }
  else if i % 4 = 2 then { r with C := md5Op block i r.C r.D r.A r.B }
  else { r with B := md5Op block i r.B r.C r.D r.A }

/-- The registers after the first `n` operations. -/
noncomputable def md5Ops (block : List Byte) (r : Md5Regs) : Nat → Md5Regs
  | 0 => r
  | n + 1 => md5Do block n (md5Ops block r n)

/-- Section 3.4: process one block. -/
noncomputable def md5Compress (r : Md5Regs) (block : List Byte) : Md5Regs :=
  let q := md5Ops block r 64
  ⟨r.A + q.A, r.B + q.B, r.C + q.C, r.D + q.D⟩

/-- RFC 1321: sections 3.1 to 3.5. The initial register values of section 3.3 are given low-order byte first. -/
noncomputable def md5 (m : List Byte) : List Byte :=
  let w (l : List Byte) : U32 := BitVec.ofNat 32 (leOctets l)
  let r := iterate md5Compress
    ⟨w [0x01, 0x23, 0x45, 0x67], w [0x89, 0xab, 0xcd, 0xef], w [0xfe, 0xdc, 0xba, 0x98], w [0x76, 0x54, 0x32, 0x10]⟩
    (blocks 64 (pad 64 8 (leBytes 8) m))
  [r.A, r.B, r.C, r.D].flatMap (fun x => leBytes 4 x.toNat)

end Verif.Spec
