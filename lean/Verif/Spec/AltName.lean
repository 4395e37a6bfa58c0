import Verif.Spec.X509

/-! subjectAltName (RFC 5280 4.2.1.6) and the comparison of host names (RFC 6125 6.4), from the standards. -/

namespace Verif.Spec

/-- id-ce-subjectAltName -/
def subjectAltName : List Nat := [2, 5, 29, 17]

/-- GeneralNames with dNSName entries only: `[2] IMPLICIT IA5String` -/
def altNameValue (names : List (List Byte)) : List Byte := tlv 0x30#8 (names.flatMap (tlv 0x82#8))

/-- The certificate names the hosts `names` in its subjectAltName extension, of which there is one. -/
def Tbs.hosts (t : Tbs) (names : List (List Byte)) : Prop :=
  (t.extensions.filter (fun e => decide (e.oid = subjectAltName))).map Extension.value = [altNameValue names]

/-- ASCII lower case -/
def lower (b : Byte) : Byte := if 0x41#8 ≤ b ∧ b ≤ 0x5a#8 then b + 0x20#8 else b

/-- Two host names without wildcards match: equal up to the case of letters. -/
def sameHost (a b : List Byte) : Prop := a.map lower = b.map lower

end Verif.Spec
