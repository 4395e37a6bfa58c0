import Verif.Base.Basic

namespace Verif.Spec

/-- little-endian octets of a `b`-bit value, `b = 8 k` -/
def octetsLE {b : Nat} : Nat → BitVec b → List Byte
  | 0, _ => []
  | k + 1, v => BitVec.ofNat 8 v.toNat :: octetsLE k (v >>> 8)

/-- little-endian octets of a list of `8 k`-bit values -/
def streamLE {b : Nat} (k : Nat) (l : List (BitVec b)) : List Byte := l.flatMap (octetsLE k)

end Verif.Spec
