import Verif.Spec.Rsa

/-! RSASSA-PSS verification for moduli of any size (RFC 8017 8.1.2), from the standard. -/

namespace Verif.Spec

/-- EMSA-PSS-ENCODE (RFC 8017 9.1.1) with a given salt and MGF1 over the same hash; `none` is "encoding error". -/
def emsaPssEncode (H : List Byte → List Byte) (hLen : Nat) (M salt : List Byte) (emBits : Nat) : Option (List Byte) :=
  let emLen := (emBits + 7) / 8
  let mHash := H M
  if emLen < hLen + salt.length + 2 then none
  else
    let M' := List.replicate 8 0x00#8 ++ mHash ++ salt
    let h := H M'
    let DB := List.replicate (emLen - salt.length - hLen - 2) 0x00#8 ++ [0x01#8] ++ salt
    match mgf1 H hLen h (emLen - hLen - 1) with
    | none => none
    | some dbMask => some (clearLeft (8 * emLen - emBits) (xorOctets DB dbMask) ++ h ++ [0xbc#8])

/-- RSASSA-PSS-VERIFY ((n, e), M, S) for a modulus of `modBits` bits. -/
noncomputable def rsassaPssVerify (c : HashClass) (sLen n e modBits : Nat) (M S : List Byte) : Bool :=
  let k := (modBits + 7) / 8
  let emLen := (modBits - 1 + 7) / 8
  let m := beNat S ^ e % n
  if S.length ≠ k then false
  else if n ≤ beNat S then false
  else if 256 ^ emLen ≤ m then false
  else emsaPssVerify (digest c) (digestLength c) sLen M (i2osp m emLen) (modBits - 1)

end Verif.Spec
