import Verif.Base.Basic

/-! What the bignum words mean. -/

namespace Verif.Spec

/-- The number written by a list of 32-bit words, least significant first. -/
def value : List U32 → Nat
  | [] => 0
  | w :: ws => w.toNat + 2 ^ 32 * value ws

/-- The number written by a byte string, least significant byte first. -/
def leNat : List Byte → Nat
  | [] => 0
  | b :: bs => b.toNat + 2 ^ 8 * leNat bs

/-- The number written by a byte string, most significant byte first (OS2IP of RFC 8017). -/
def beNat (bs : List Byte) : Nat := leNat bs.reverse

/-- Number of 32-bit words needed for `bits` bits. -/
def wordCount (bits : Nat) : Nat := (bits + 31) / 32

end Verif.Spec
