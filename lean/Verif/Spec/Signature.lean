import Verif.Spec.X509

/-! RSASSA-PKCS1-v1_5 verification (RFC 8017 8.2.2), the algorithm identifiers of certificates, and BER elements (X.690), from the standards. -/

namespace Verif.Spec

/-- Length in octets of the modulus, `k` in RFC 8017. -/
def octetLength (n : Nat) : Nat := (minBytes n).length

/-- RSASSA-PKCS1-V1_5-VERIFY ((n, e), M, S) -/
def rsassaPkcs1Verify (c : HashClass) (n e : Nat) (M S : List Byte) : Prop :=
  S.length = octetLength n ∧ beNat S < n ∧ ∃ oid, hashOid c = some oid ∧ emsaPkcs1 (digest c) oid M (octetLength n) = some (i2osp (beNat S ^ e % n) (octetLength n))

/-- sha256WithRSAEncryption, sha384WithRSAEncryption, sha512WithRSAEncryption (RFC 8017 A.2.4) -/
def rsaSignatureAlgorithm : HashClass → Option (List Nat)
  | .sha2_256 => some [1, 2, 840, 113549, 1, 1, 11]
  | .sha2_384 => some [1, 2, 840, 113549, 1, 1, 12]
  | .sha2_512 => some [1, 2, 840, 113549, 1, 1, 13]
  | _ => none

/-- The first element of a byte string: tag, content, all its octets, and what follows. -/
def berElement (l : List Byte) : Option (Byte × List Byte × List Byte × List Byte) :=
  match berHeader l with
  | none => none
  | some (tag, len, h) => if l.length < h + len then none else some (tag, (l.drop h).take len, l.take (h + len), l.drop (h + len))

/-- Tag, content octets, all octets, and what follows, if the tag is the expected one. -/
def berExpect (tag : Byte) (l : List Byte) : Option (List Byte × List Byte × List Byte) :=
  match berElement l with
  | none => none
  | some (t, r) => if t = tag then some r else none

/-- The parts of a certificate (RFC 5280 4.1): all octets of the TBSCertificate, content octets of the identifier of the signature algorithm, octets
of the signature. -/
def certificateParts (der : List Byte) : Option (List Byte × List Byte × List Byte) := do
  let cert ← berExpect 0x30#8 der
  let tbs ← berExpect 0x30#8 cert.1
  let algorithm ← berExpect 0x30#8 tbs.2.2
  let signature ← berExpect 0x03#8 algorithm.2.2
  let oid ← berExpect 0x06#8 algorithm.1
  match signature.1 with
  | [] => none
  | _ :: s => some (tbs.2.1, oid.1, s)

end Verif.Spec
