import Verif.Spec.Der
import Verif.Spec.Date
import Verif.Spec.Rsa

/-! The parts of a certificate (RFC 5280) and their DER encoding, written from the standard. -/

namespace Verif.Spec

/-- AttributeTypeAndValue: content octets of the object identifier, tag and content octets of the string. -/
structure Attr where
  oid : List Byte
  tag : Byte
  value : List Byte
deriving DecidableEq

/-- A distinguished name: a sequence of relative distinguished names, each a set of attributes. -/
abbrev DistinguishedName := List (List Attr)

def attrDer (a : Attr) : List Byte := tlv 0x30#8 (tlv 0x06#8 a.oid ++ tlv a.tag a.value)

/-- Content octets of the RDNSequence. -/
def nameDer (n : DistinguishedName) : List Byte := n.flatMap (fun rdn => tlv 0x31#8 (rdn.flatMap attrDer))

/-- The attribute types of RFC 5280 appendix A.1 and PKCS #9 that the library knows (X.520 numbers):
id-at-serialNumber, countryName, localityName, streetAddress, stateOrProvinceName, emailAddress, givenName, surname, title, organizationName,
organizationIdentifier, organizationalUnitName, commonName. -/
def attributeTypes : List (List Nat) := [[2, 5, 4, 5], [2, 5, 4, 6], [2, 5, 4, 7], [2, 5, 4, 9], [2, 5, 4, 8], [1, 2, 840, 113549, 1, 9, 1],
  [2, 5, 4, 42], [2, 5, 4, 4], [2, 5, 4, 12], [2, 5, 4, 10], [2, 5, 4, 97], [2, 5, 4, 11], [2, 5, 4, 3]]

/-- Content octets of a non-negative INTEGER (X.690 8.3): two's complement, as short as possible. -/
def integerContent (n : Nat) : List Byte :=
  match minBytes n with
  | [] => [0x00#8]
  | b :: t => if 0x80#8 ≤ b then 0x00#8 :: b :: t else b :: t

def integerDer (n : Nat) : List Byte := tlv 0x02#8 (integerContent n)

/-- RFC 5280 4.1.2.5: UTCTime through the year 2049, GeneralizedTime from 2050 on. -/
def timeDer (d : DateTime) : List Byte := if d.year ≤ 2049 then tlv 0x17#8 (utcTime d) else tlv 0x18#8 (generalizedTime d)

/-- RSAPublicKey (RFC 8017 A.1.1) -/
def rsaKeyDer (modulus exponent : Nat) : List Byte := tlv 0x30#8 (integerDer modulus ++ integerDer exponent)

/-- SubjectPublicKeyInfo with an RSA key (RFC 3279 2.3.1); `parameters` is the encoding of the algorithm parameters, normally NULL. -/
def rsaSpkiDer (parameters : List Byte) (modulus exponent : Nat) : List Byte :=
  tlv 0x30#8 (tlv 0x30#8 (tlv 0x06#8 (oidContent [1, 2, 840, 113549, 1, 1, 1]) ++ parameters) ++ tlv 0x03#8 (0x00#8 :: rsaKeyDer modulus exponent))

structure Extension where
  oid : List Nat
  critical : Bool
  value : List Byte

def extensionDer (e : Extension) : List Byte :=
  tlv 0x30#8 (tlv 0x06#8 (oidContent e.oid) ++ (if e.critical then tlv 0x01#8 [0xff#8] else []) ++ tlv 0x04#8 e.value)

def extensionsDer (l : List Extension) : List Byte := if l.isEmpty then [] else tlv 0xa3#8 (tlv 0x30#8 (l.flatMap extensionDer))

/-- TBSCertificate, version 3, with an RSA key (RFC 5280 4.1). `algorithm` is the content of the AlgorithmIdentifier; the unique identifiers are
the content octets of the BIT STRINGs, if present. -/
structure Tbs where
  serial : Nat
  algorithm : List Byte
  issuer : DistinguishedName
  notBefore : DateTime
  notAfter : DateTime
  subject : DistinguishedName
  parameters : List Byte
  modulus : Nat
  exponent : Nat
  issuerUniqueID : Option (List Byte)
  subjectUniqueID : Option (List Byte)
  extensions : List Extension

/-- `[1] IMPLICIT BIT STRING`, `[2] IMPLICIT BIT STRING`: context-specific, primitive -/
def uniqueIdDer (tag : Byte) : Option (List Byte) → List Byte
  | none => []
  | some c => tlv tag c

def tbsContent (t : Tbs) : List Byte :=
  tlv 0xa0#8 (integerDer 2) ++ (integerDer t.serial ++ (tlv 0x30#8 t.algorithm ++ (tlv 0x30#8 (nameDer t.issuer) ++
  (tlv 0x30#8 (timeDer t.notBefore ++ timeDer t.notAfter) ++ (tlv 0x30#8 (nameDer t.subject) ++ (rsaSpkiDer t.parameters t.modulus t.exponent ++
  (uniqueIdDer 0x81#8 t.issuerUniqueID ++ (uniqueIdDer 0x82#8 t.subjectUniqueID ++ extensionsDer t.extensions))))))))

def tbsDer (t : Tbs) : List Byte := tlv 0x30#8 (tbsContent t)

/-- Certificate: `algorithm` is the content of the AlgorithmIdentifier, `signature` the octets of the signature. -/
def certDer (t : Tbs) (algorithm signature : List Byte) : List Byte :=
  tlv 0x30#8 (tbsDer t ++ (tlv 0x30#8 algorithm ++ tlv 0x03#8 (0x00#8 :: signature)))

/-- id-ce-basicConstraints (RFC 5280 4.2.1.9) -/
def basicConstraints : List Nat := [2, 5, 29, 19]

/-- The certificate has a basicConstraints extension with cA TRUE: the value starts with the BOOLEAN TRUE. -/
def Tbs.isCA (t : Tbs) : Prop := ∃ e ∈ t.extensions, e.oid = basicConstraints ∧ ∃ rest, e.value = tlv 0x30#8 (tlv 0x01#8 [0xff#8] ++ rest)

end Verif.Spec
