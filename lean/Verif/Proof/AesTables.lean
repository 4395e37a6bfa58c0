import Verif.Model.Aes
import Verif.Spec.Aes

/-! Statements about all 256 bytes, by evaluation in the kernel. -/

namespace Verif.Proof
open Verif.Model Verif.Spec.Aes

set_option maxRecDepth 100000 in
theorem subByte_table : ∀ n < 256, subByte (BitVec.ofNat 8 n) = sbox (BitVec.ofNat 8 n) := by decide +kernel

set_option maxRecDepth 100000 in
theorem gfInv_table : ∀ n < 256, n = 0 ∨ gmul (BitVec.ofNat 8 n) (gfInv (BitVec.ofNat 8 n)) = 1#8 := by decide +kernel

set_option maxRecDepth 100000 in
theorem xtime_table : ∀ n < 256, gmul 0x02#8 (BitVec.ofNat 8 n) = xtime (BitVec.ofNat 8 n) ∧
    gmul 0x03#8 (BitVec.ofNat 8 n) = xtime (BitVec.ofNat 8 n) ^^^ BitVec.ofNat 8 n := by decide +kernel

/-- The inverse S-box as a function: the byte that the S-box maps to `b`. -/
def unsub (b : Byte) : Byte := BitVec.ofNat 8 (sboxTable.idxOf b)

set_option maxRecDepth 100000 in
theorem unsub_table : ∀ n < 256, unsub (subByte (BitVec.ofNat 8 n)) = BitVec.ofNat 8 n := by decide +kernel

/-- One byte of the inverse column: `14a + 11b + 13c + 9d`. -/
def unmixByte (a b c d : Byte) : Byte :=
  let x2 := fun v => xtime v
  let x4 := fun v => xtime (xtime v)
  let x8 := fun v => xtime (xtime (xtime v))
  (x8 a ^^^ x4 a ^^^ x2 a) ^^^ (x8 b ^^^ x2 b ^^^ b) ^^^ (x8 c ^^^ x4 c ^^^ c) ^^^ (x8 d ^^^ d)

set_option maxRecDepth 100000 in
theorem unmix_table : ∀ n < 256, (unmixByte (mixByte (BitVec.ofNat 8 n) 0#8 0#8 0#8) (mixByte 0#8 0#8 0#8 (BitVec.ofNat 8 n))
      (mixByte 0#8 0#8 (BitVec.ofNat 8 n) 0#8) (mixByte 0#8 (BitVec.ofNat 8 n) 0#8 0#8) = BitVec.ofNat 8 n) ∧
    (unmixByte (mixByte 0#8 (BitVec.ofNat 8 n) 0#8 0#8) (mixByte (BitVec.ofNat 8 n) 0#8 0#8 0#8) (mixByte 0#8 0#8 0#8 (BitVec.ofNat 8 n))
      (mixByte 0#8 0#8 (BitVec.ofNat 8 n) 0#8) = 0#8) ∧
    (unmixByte (mixByte 0#8 0#8 (BitVec.ofNat 8 n) 0#8) (mixByte 0#8 (BitVec.ofNat 8 n) 0#8 0#8) (mixByte (BitVec.ofNat 8 n) 0#8 0#8 0#8)
      (mixByte 0#8 0#8 0#8 (BitVec.ofNat 8 n)) = 0#8) ∧
    (unmixByte (mixByte 0#8 0#8 0#8 (BitVec.ofNat 8 n)) (mixByte 0#8 0#8 (BitVec.ofNat 8 n) 0#8) (mixByte 0#8 (BitVec.ofNat 8 n) 0#8 0#8)
      (mixByte (BitVec.ofNat 8 n) 0#8 0#8 0#8) = 0#8) := by decide +kernel

end Verif.Proof
