import Verif.Base.HashClass
import Verif.Spec.Md5
import Verif.Spec.Sha2
import Verif.Spec.Sha3
import Verif.Spec.Crc

/-! What each hash name denotes, hexadecimal text and DER of a DigestInfo. Independent of the model. -/

namespace Verif.Spec

/-- Bit string to bytes, least significant bit of each byte first (FIPS 202 appendix B.1). -/
def bytesOfBits (bits : List Bool) : List Byte :=
  (blocks 8 bits).map (fun b => BitVec.ofNat 8 (b.foldr (fun x n => x.toNat + 2 * n) 0))

/-- The standard digest of a message. -/
noncomputable def digest : HashClass → List Byte → List Byte
  | .md5, m => md5 m
  | .sha1, m => sha1 m
  | .sha2_224, m => sha224 m
  | .sha2_256, m => sha256 m
  | .sha2_384, m => sha384 m
  | .sha2_512, m => sha512 m
  | .sha3_224, m => bytesOfBits (Keccak.sha3Bits 224 m)
  | .sha3_256, m => bytesOfBits (Keccak.sha3Bits 256 m)
  | .sha3_384, m => bytesOfBits (Keccak.sha3Bits 384 m)
  | .sha3_512, m => bytesOfBits (Keccak.sha3Bits 512 m)
  | .crc32, m => crc32 m

/-- Digest length in bytes. -/
def digestLength : HashClass → Nat
  | .md5 => 16
  | .sha1 => 20
  | .sha2_224 | .sha3_224 => 28
  | .sha2_256 | .sha3_256 => 32
  | .sha2_384 | .sha3_384 => 48
  | .sha2_512 | .sha3_512 => 64
  | .crc32 => 4

/-- The algorithm denoted by a hash name; `none` for a name that denotes nothing. -/
def denotes (name : List Byte) : Option HashClass :=
  (([("md5", .md5), ("sha", .sha1), ("sha1", .sha1), ("sha224", .sha2_224), ("sha256", .sha2_256), ("sha384", .sha2_384),
    ("sha512", .sha2_512), ("sha2-224", .sha2_224), ("sha2-256", .sha2_256), ("sha2-384", .sha2_384), ("sha2-512", .sha2_512),
    ("sha3-224", .sha3_224), ("sha3-256", .sha3_256), ("sha3-384", .sha3_384), ("sha3-512", .sha3_512)] :
    List (String × HashClass)).find? (fun p => ascii p.1 = name)).map (·.2)

/-- Value of a lower-case hexadecimal digit. -/
def hexDigitValue (c : Char) : Option Nat :=
  if '0'.toNat ≤ c.toNat ∧ c.toNat ≤ '9'.toNat then some (c.toNat - '0'.toNat)
  else if 'a'.toNat ≤ c.toNat ∧ c.toNat ≤ 'f'.toNat then some (c.toNat - 'a'.toNat + 10)
  else none

/-- Decodes lower-case hexadecimal text; `none` if it is not an even number of digits. -/
def decodeHex : List Char → Option (List Byte)
  | [] => some []
  | [_] => none
  | a :: b :: t => do
      let x ← hexDigitValue a
      let y ← hexDigitValue b
      let r ← decodeHex t
      return BitVec.ofNat 8 (16 * x + y) :: r

/-! DER (X.690) of `DigestInfo ::= SEQUENCE { SEQUENCE { OID, NULL }, OCTET STRING }` (RFC 8017 section 9.2). -/

/-- Minimal base-256 representation, most significant first; empty for 0. -/
def minBytes (n : Nat) : List Byte :=
  if n = 0 then [] else minBytes (n / 256) ++ [BitVec.ofNat 8 n]

/-- Definite-form length octets (X.690 10.1): short form below 128, otherwise minimal long form. -/
def derLength (n : Nat) : List Byte :=
  if n < 128 then [BitVec.ofNat 8 n] else BitVec.ofNat 8 (128 + (minBytes n).length) :: minBytes n

/-- tag, length, content -/
def tlv (tag : Byte) (content : List Byte) : List Byte := tag :: (derLength content.length ++ content)

/-- Base-128 groups of an OID component, continuation bit on all but the last. -/
def base128 (n : Nat) : List Byte := go (n / 128) [BitVec.ofNat 8 (n % 128)]
where
  go (n : Nat) (acc : List Byte) : List Byte :=
    if n = 0 then acc else go (n / 128) (BitVec.ofNat 8 (128 + n % 128) :: acc)

/-- Contents of an OBJECT IDENTIFIER with at least two components. -/
def oidContent : List Nat → List Byte
  | a :: b :: rest => base128 (40 * a + b) ++ rest.flatMap base128
  | _ => []

/-- Object identifiers: RFC 8017 appendix B.1, FIPS 202 / NIST CSOR. CRC32 has none. -/
def hashOid : HashClass → Option (List Nat)
  | .md5 => some [1, 2, 840, 113549, 2, 5]
  | .sha1 => some [1, 3, 14, 3, 2, 26]
  | .sha2_256 => some [2, 16, 840, 1, 101, 3, 4, 2, 1]
  | .sha2_384 => some [2, 16, 840, 1, 101, 3, 4, 2, 2]
  | .sha2_512 => some [2, 16, 840, 1, 101, 3, 4, 2, 3]
  | .sha2_224 => some [2, 16, 840, 1, 101, 3, 4, 2, 4]
  | .sha3_224 => some [2, 16, 840, 1, 101, 3, 4, 2, 7]
  | .sha3_256 => some [2, 16, 840, 1, 101, 3, 4, 2, 8]
  | .sha3_384 => some [2, 16, 840, 1, 101, 3, 4, 2, 9]
  | .sha3_512 => some [2, 16, 840, 1, 101, 3, 4, 2, 10]
  | .crc32 => none

/-- DER encoding of the DigestInfo. -/
def digestInfo (oid : List Nat) (d : List Byte) : List Byte :=
  tlv 0x30#8 (tlv 0x30#8 (tlv 0x06#8 (oidContent oid) ++ tlv 0x05#8 []) ++ tlv 0x04#8 d)

end Verif.Spec
