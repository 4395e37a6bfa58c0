import Verif.Base.Basic

/-! The names of the hash functions, shared by specification and model (a plain enumeration, no content). -/

namespace Verif

/-- The hash functions of the library. -/
inductive HashClass where
  | md5 | sha1 | sha2_224 | sha2_256 | sha2_384 | sha2_512 | sha3_224 | sha3_256 | sha3_384 | sha3_512 | crc32
deriving DecidableEq, Repr

/-- every class -/
def HashClass.all : List HashClass :=
  [.md5, .sha1, .sha2_224, .sha2_256, .sha2_384, .sha2_512, .sha3_224, .sha3_256, .sha3_384, .sha3_512, .crc32]

end Verif

/-- One use of a hash object. -/
inductive Verif.HOp where
  /-- `add(data)` -/
  | add (d : List Verif.Byte)
  /-- read the digest -/
  | read
