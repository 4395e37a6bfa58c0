import Verif.Spec.Bignum
import Verif.Spec.Hash
import Mathlib.Data.Nat.Prime.Defs
import Mathlib.Data.Nat.ModEq

/-! RFC 8017 (PKCS #1 v2.2), written from the standard. -/

namespace Verif.Spec

/-- I2OSP (RFC 8017 4.1): `k` octets, most significant first. -/
def i2osp (n k : Nat) : List Byte := (List.range k).map (fun i => BitVec.ofNat 8 (n / 256 ^ (k - 1 - i)))

/-- MGF1 (RFC 8017 B.2.1) over a hash function `H` with output length `hLen`; `none` is "mask too long". -/
def mgf1 (H : List Byte → List Byte) (hLen : Nat) (seed : List Byte) (maskLen : Nat) : Option (List Byte) :=
  if 2 ^ 32 * hLen < maskLen then none
  else some (((List.range ((maskLen + hLen - 1) / hLen)).flatMap (fun counter => H (seed ++ i2osp counter 4))).take maskLen)

/-- EMSA-PKCS1-v1_5-ENCODE (RFC 8017 9.2) for a hash with object identifier `oid`; `none` is "intended encoded message length too short". -/
def emsaPkcs1 (H : List Byte → List Byte) (oid : List Nat) (M : List Byte) (emLen : Nat) : Option (List Byte) :=
  let T := digestInfo oid (H M)
  if emLen < T.length + 11 then none
  else some ([0x00#8, 0x01#8] ++ List.replicate (emLen - T.length - 3) 0xff#8 ++ [0x00#8] ++ T)

/-- the bitwise exclusive or of two octet strings -/
def xorOctets (a b : List Byte) : List Byte := List.zipWith (· ^^^ ·) a b

/-- Clears the leftmost `z` bits of the first octet (`z ≤ 8`). -/
def clearLeft (z : Nat) : List Byte → List Byte
  | [] => []
  | b :: t => BitVec.ofNat 8 (b.toNat % 2 ^ (8 - z)) :: t

/-- EMSA-PSS-VERIFY (RFC 8017 9.1.2) with MGF1 over the same hash; `emLen = ⌈emBits / 8⌉`. `true` is "consistent". -/
def emsaPssVerify (H : List Byte → List Byte) (hLen sLen : Nat) (M EM : List Byte) (emBits : Nat) : Bool :=
  let emLen := (emBits + 7) / 8
  let mHash := H M
  if emLen < hLen + sLen + 2 then false
  else if EM.length ≠ emLen then false
  else if EM.getLast? ≠ some 0xbc#8 then false
  else
    let maskedDB := EM.take (emLen - hLen - 1)
    let h := (EM.drop (emLen - hLen - 1)).take hLen
    if clearLeft (8 * emLen - emBits) maskedDB ≠ maskedDB then false
    else match mgf1 H hLen h (emLen - hLen - 1) with
      | none => false
      | some dbMask =>
        let DB := clearLeft (8 * emLen - emBits) (xorOctets maskedDB dbMask)
        if DB.take (emLen - hLen - sLen - 1) ≠ List.replicate (emLen - hLen - sLen - 2) 0x00#8 ++ [0x01#8] then false
        else
          let salt := DB.drop (emLen - hLen - sLen - 1)
          let M' := List.replicate 8 0x00#8 ++ mHash ++ salt
          decide (h = H M')

/-- An RSA key pair (RFC 8017 3.1, 3.2) with two distinct odd primes. -/
def ValidPair (n e d : Nat) : Prop :=
  ∃ p q : Nat, p.Prime ∧ q.Prime ∧ p ≠ q ∧ p ≠ 2 ∧ q ≠ 2 ∧ n = p * q ∧ e * d ≡ 1 [MOD Nat.lcm (p - 1) (q - 1)]

end Verif.Spec
