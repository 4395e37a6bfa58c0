import Verif.Spec.Hash
import Verif.Spec.Bignum

/-! Identifier and length octets of X.690, written from the standard. The encoder is `tlv` in `Spec/Hash.lean`. -/

namespace Verif.Spec

/-- Identifier octet and definite-form length octets at the start of a byte string (X.690 8.1.2.2, 8.1.3.3 - 8.1.3.5; one identifier octet):
tag, number of content octets, number of identifier and length octets. A first length octet of 128 is read as no further length octets and
length 0, as the value of an empty string of digits. -/
def berHeader : List Byte → Option (Byte × Nat × Nat)
  | tag :: l :: t =>
    if l.toNat < 128 then some (tag, l.toNat, 2)
    else if t.length < l.toNat - 128 then none
    else some (tag, beNat (t.take (l.toNat - 128)), 2 + (l.toNat - 128))
  | _ => none

/-- A sequence of DER elements. -/
def tlvs (elems : List (Byte × List Byte)) : List Byte := elems.flatMap (fun e => tlv e.1 e.2)

end Verif.Spec
