import Verif.Spec.Bignum
import Mathlib.Data.ZMod.Basic
import Mathlib.AlgebraicGeometry.EllipticCurve.Affine.Point

/-! RFC 7748: the field, the curve and the function X25519. -/

namespace Verif.Spec

/-- The prime of RFC 7748 section 4.1. -/
def p25519 : Nat := 2 ^ 255 - 19

/-- `decodeLittleEndian` with masking of the unused most significant bit, `decodeUCoordinate(u, 255)` : RFC 7748 section 5 -/
def decodeU (u : List Byte) : Nat := leNat u % 2 ^ 255

/-- `decodeScalar25519` : RFC 7748 section 5: the three least significant bits and bit 255 are cleared, bit 254 is set. -/
def decodeScalar (k : List Byte) : Nat := leNat k % 2 ^ 254 / 8 * 8 + 2 ^ 254

/-- The local variables of the ladder of RFC 7748 section 5. -/
structure Rfc7748State where
  x2 : ZMod p25519
  z2 : ZMod p25519
  x3 : ZMod p25519
  z3 : ZMod p25519
  swap : Bool

/-- `cswap(swap, x_2, x_3)` -/
def cswap {α : Type} (swap : Bool) (a b : α) : α × α := if swap then (b, a) else (a, b)

/-- The body of the loop over `t` in RFC 7748 section 5. -/
def rfc7748Body (k : Nat) (x1 : ZMod p25519) (s : Rfc7748State) (t : Nat) : Rfc7748State :=
  let kt := (k / 2 ^ t) % 2 == 1
  let swap := s.swap ^^ kt
  let (x2, x3) := cswap swap s.x2 s.x3
  let (z2, z3) := cswap swap s.z2 s.z3
  let swap := kt
  let A := x2 + z2
  let AA := A ^ 2
  let B := x2 - z2
  let BB := B ^ 2
  let E := AA - BB
  let C := x3 + z3
  let D := x3 - z3
  let DA := D * A
  let CB := C * B
  ⟨AA * BB, E * (AA + 121665 * E), (DA + CB) ^ 2, x1 * (DA - CB) ^ 2, swap⟩

/-- The function of RFC 7748 section 5 on numbers, with `bits = 255`: `For t = bits-1 down to 0`. -/
def rfc7748 (k u : Nat) : Nat :=
  let x1 : ZMod p25519 := u
  let s := (List.range 255).reverse.foldl (rfc7748Body k x1) ⟨1, 0, x1, 1, false⟩
  let (x2, _) := cswap s.swap s.x2 s.x3
  let (z2, _) := cswap s.swap s.z2 s.z3
  (x2 * z2 ^ (p25519 - 2)).val

/-- Little-endian encoding in `n` bytes. -/
def encodeLE (n x : Nat) : List Byte := (List.range n).map (fun i => BitVec.ofNat 8 (x / 2 ^ (8 * i)))

/-- `X25519(k, u)` on 32-byte strings: RFC 7748 section 5. -/
def rfcX25519 (k u : List Byte) : List Byte := encodeLE 32 (rfc7748 (decodeScalar k) (decodeU u))

/-- curve25519 in RFC 7748 section 4.1: `v^2 = u^3 + A*u^2 + u` with `A = 486662`, over any field. -/
def curve25519 (F : Type) [Field F] : WeierstrassCurve.Affine F := { a₁ := 0, a₂ := 486662, a₃ := 0, a₄ := 1, a₆ := 0 }

/-- The `u`-coordinate of a point, 0 for the neutral element. -/
def uCoord {F : Type} [Field F] {W : WeierstrassCurve.Affine F} : W.Point → F
  | .zero => 0
  | .some x _ _ => x

end Verif.Spec
