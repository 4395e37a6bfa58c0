import Verif.Spec.Base64

/-! Textual encoding of certificates (RFC 7468), independent of the model. -/

namespace Verif.Spec

/-- Space, tab, line feed, carriage return. -/
def whitespace : List Byte := [0x20#8, 0x09#8, 0x0a#8, 0x0d#8]

def beginMark : List Byte := ascii "-----BEGIN CERTIFICATE-----"
def endMark : List Byte := ascii "-----END CERTIFICATE-----"

/-- The base64 text of `der`, with white space anywhere. -/
def Base64Of (der text : List Byte) : Prop :=
  text.filter (fun c => !whitespace.contains c) = base64Text (alphabet '+' '/') false der

/-- A certificate in a bundle: its bytes, the base64 text between the boundary lines and the text behind the end boundary. -/
structure PemBlock where
  der : List Byte
  body : List Byte
  gap : List Byte

def startsWhite (l : List Byte) : Prop := ∃ c ∈ whitespace, ∃ t, l = c :: t

/-- The boundaries are on their own lines; explanatory text has no hyphens. -/
structure PemBlock.Valid (b : PemBlock) : Prop where
  body : Base64Of b.der b.body
  bodyWhite : startsWhite b.body
  gap : 0x2d#8 ∉ b.gap
  gapWhite : startsWhite b.gap

def PemBlock.text (b : PemBlock) : List Byte := beginMark ++ (b.body ++ (endMark ++ b.gap))

/-- Explanatory text, then the certificates. -/
def pemBundle (intro : List Byte) (blocks : List PemBlock) : List Byte := intro ++ blocks.flatMap PemBlock.text

end Verif.Spec
