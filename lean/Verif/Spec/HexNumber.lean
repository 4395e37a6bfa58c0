import Verif.Spec.Bignum

/-! Reading hexadecimal numbers, written independently of the library. -/

namespace Verif.Spec

/-- The value of a hexadecimal digit in upper case. -/
def upperDigit (b : Byte) : Option Nat :=
  if 0x30#8 ≤ b ∧ b ≤ 0x39#8 then some (b.toNat - 0x30) else if 0x41#8 ≤ b ∧ b ≤ 0x46#8 then some (b.toNat - 0x41 + 10) else none

/-- Reads a hexadecimal number, most significant digit first, ignoring spaces; `none` if there is any other character. -/
def readHex : List Byte → Nat → Option Nat
  | [], acc => some acc
  | b :: t, acc => if b = 0x20#8 then readHex t acc else (upperDigit b).bind (fun d => readHex t (16 * acc + d))

end Verif.Spec
