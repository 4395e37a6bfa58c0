import Verif.Base.HashClass
import Verif.Model.Md5
import Verif.Model.Sha1
import Verif.Model.Sha2
import Verif.Model.Sha3
import Verif.Model.Crc

/-! The public face of all hash classes, and model of src/hash.cpp, include/caligo/hash.h. -/

namespace Verif.Model

/-- Members of an object of each class: include/caligo/md5.h:35-37, sha1.h:35-37, sha2.h:39-41,102-104 (224 and 384 derive
from 256 and 512 and add no members), sha3.h:47-48, crc.h:32. -/
def HState : HashClass → Type
  | .md5 => BlockState md5
  | .sha1 => BlockState sha1
  | .sha2_224 => BlockState sha224
  | .sha2_256 => BlockState sha256
  | .sha2_384 => BlockState sha384
  | .sha2_512 => BlockState sha512
  | .sha3_224 | .sha3_256 | .sha3_384 | .sha3_512 => Sha3State
  | .crc32 => U32

/-- Size of the uninitialised `chunk` member: md5.h:35, sha1.h:35, sha2.h:39,102; SHA3 and CRC32 have none. -/
def bufSize : HashClass → Nat
  | .md5 | .sha1 | .sha2_224 | .sha2_256 => 64
  | .sha2_384 | .sha2_512 => 128
  | .sha3_224 | .sha3_256 | .sha3_384 | .sha3_512 | .crc32 => 0

/-- `size` template argument of the SHA3 classes -/
def sha3Size : HashClass → Nat
  | .sha3_224 => 224
  | .sha3_256 => 256
  | .sha3_384 => 384
  | .sha3_512 => 512
  | _ => 0

/-- Constructors: src/md5.cpp:6-11, src/sha1.cpp:6-12, src/sha2.cpp:6-15,120-129,252-272, src/sha3.cpp:4-8, src/crc.cpp:45-47.
`junk` is the content of the uninitialised buffer. -/
def hnew (c : HashClass) (junk : List Byte) : HState c :=
  match c with
  | .md5 => BlockState.new md5 junk
  | .sha1 => BlockState.new sha1 junk
  | .sha2_224 => BlockState.new sha224 junk
  | .sha2_256 => BlockState.new sha256 junk
  | .sha2_384 => BlockState.new sha384 junk
  | .sha2_512 => BlockState.new sha512 junk
  | .sha3_224 => Sha3State.new
  | .sha3_256 => Sha3State.new
  | .sha3_384 => Sha3State.new
  | .sha3_512 => Sha3State.new
  | .crc32 => crcNew

/-- `add(span)`: src/md5.cpp:39-61, src/sha1.cpp:14-36, src/sha2.cpp:17-39,131-153, src/sha3.cpp:10-24, src/crc.cpp:49-53. -/
def hadd (c : HashClass) (s : HState c) (d : List Byte) : HState c :=
  match c, s with
  | .md5, s => BlockState.add (A := md5) s d
  | .sha1, s => BlockState.add (A := sha1) s d
  | .sha2_224, s => BlockState.add (A := sha224) s d
  | .sha2_256, s => BlockState.add (A := sha256) s d
  | .sha2_384, s => BlockState.add (A := sha384) s d
  | .sha2_512, s => BlockState.add (A := sha512) s d
  | .sha3_224, s => Sha3State.add 224 s d
  | .sha3_256, s => Sha3State.add 256 s d
  | .sha3_384, s => Sha3State.add 384 s d
  | .sha3_512, s => Sha3State.add 512 s d
  | .crc32, s => crcAdd s d

/-- `data()`: the conversions to `std::array`, src/md5.cpp:63-83, src/sha1.cpp:38-58, src/sha2.cpp:88-108,220-240,
include/caligo/sha2.h:60-66,123-129, src/sha3.cpp:26-39, src/crc.cpp:55-62. All of them are `const` and work on a copy. -/
def hdata (c : HashClass) (s : HState c) : List Byte :=
  match c, s with
  | .md5, s => BlockState.data (A := md5) s
  | .sha1, s => BlockState.data (A := sha1) s
  | .sha2_224, s => BlockState.data (A := sha224) s
  | .sha2_256, s => BlockState.data (A := sha256) s
  | .sha2_384, s => BlockState.data (A := sha384) s
  | .sha2_512, s => BlockState.data (A := sha512) s
  | .sha3_224, s => Sha3State.data 224 s
  | .sha3_256, s => Sha3State.data 256 s
  | .sha3_384, s => Sha3State.data 384 s
  | .sha3_512, s => Sha3State.data 512 s
  | .crc32, s => crcData s

/-- `operator std::string`: src/md5.cpp:85-93, src/sha1.cpp:60-68, src/sha2.cpp:110-118,242-250, src/sha3.cpp:41-49,
src/crc.cpp:64-72. `SHA2<224>` and `SHA2<384>` use the conversion of their base class (include/caligo/sha2.h:67,130), where `data()`
is the base class's untruncated one. -/
def hstring (c : HashClass) (s : HState c) : List Char :=
  match c, s with
  | .sha2_224, s => toHex (BlockState.data (A := sha256) ⟨BlockState.h (A := sha224) s, BlockState.chunk (A := sha224) s,
      BlockState.msglength (A := sha224) s⟩)
  | .sha2_384, s => toHex (BlockState.data (A := sha512) ⟨BlockState.h (A := sha384) s, BlockState.chunk (A := sha384) s,
      BlockState.msglength (A := sha384) s⟩)
  | .md5, s => toHex (hdata .md5 s)
  | .sha1, s => toHex (hdata .sha1 s)
  | .sha2_256, s => toHex (hdata .sha2_256 s)
  | .sha2_512, s => toHex (hdata .sha2_512 s)
  | .sha3_224, s => toHex (hdata .sha3_224 s)
  | .sha3_256, s => toHex (hdata .sha3_256 s)
  | .sha3_384, s => toHex (hdata .sha3_384 s)
  | .sha3_512, s => toHex (hdata .sha3_512 s)
  | .crc32, s => toHex (hdata .crc32 s)

/-- `hashsize`: md5.h:12, sha1.h:12, sha2.h:16,46,79,109, sha3.h:13, crc.h:12 -/
def hashsize : HashClass → Nat
  | .md5 => 16
  | .sha1 => 20
  | .sha2_224 => 28
  | .sha2_256 => 32
  | .sha2_384 => 48
  | .sha2_512 => 64
  | .sha3_224 => 224 / 8
  | .sha3_256 => 256 / 8
  | .sha3_384 => 384 / 8
  | .sha3_512 => 512 / 8
  | .crc32 => 4

/-- `getAsn1Id()`: md5.h:30-32, sha1.h:27-29, sha2.h:31-33,69-71,94-96,132-134, sha3.h:32-44. `CRC32` has no such member: `none`. -/
def getAsn1Id : HashClass → Option (List Byte)
  | .md5 => some [0x30, 0x20, 0x30, 0x0c, 0x06, 0x08, 0x2a, 0x86, 0x48, 0x86, 0xf7, 0x0d, 0x02, 0x05, 0x05, 0x00, 0x04, 0x10]
  | .sha1 => some [0x30, 0x21, 0x30, 0x09, 0x06, 0x05, 0x2b, 0x0e, 0x03, 0x02, 0x1a, 0x05, 0x00, 0x04, 0x14]
  | .sha2_224 => some [0x30, 0x2d, 0x30, 0x0d, 0x06, 0x09, 0x60, 0x86, 0x48, 0x01, 0x65, 0x03, 0x04, 0x02, 0x04, 0x05, 0x00, 0x04, 0x1c]
  | .sha2_256 => some [0x30, 0x31, 0x30, 0x0d, 0x06, 0x09, 0x60, 0x86, 0x48, 0x01, 0x65, 0x03, 0x04, 0x02, 0x01, 0x05, 0x00, 0x04, 0x20]
  | .sha2_384 => some [0x30, 0x41, 0x30, 0x0d, 0x06, 0x09, 0x60, 0x86, 0x48, 0x01, 0x65, 0x03, 0x04, 0x02, 0x02, 0x05, 0x00, 0x04, 0x30]
  | .sha2_512 => some [0x30, 0x51, 0x30, 0x0d, 0x06, 0x09, 0x60, 0x86, 0x48, 0x01, 0x65, 0x03, 0x04, 0x02, 0x03, 0x05, 0x00, 0x04, 0x40]
  | .sha3_224 => some [0x30, 0x31, 0x30, 0x0d, 0x06, 0x09, 0x60, 0x86, 0x48, 0x01, 0x65, 0x03, 0x04, 0x02, 0x07, 0x05, 0x00, 0x04, 0x20]
  | .sha3_256 => some [0x30, 0x31, 0x30, 0x0d, 0x06, 0x09, 0x60, 0x86, 0x48, 0x01, 0x65, 0x03, 0x04, 0x02, 0x08, 0x05, 0x00, 0x04, 0x20]
  | .sha3_384 => some [0x30, 0x31, 0x30, 0x0d, 0x06, 0x09, 0x60, 0x86, 0x48, 0x01, 0x65, 0x03, 0x04, 0x02, 0x09, 0x05, 0x00, 0x04, 0x20]
  | .sha3_512 => some [0x30, 0x31, 0x30, 0x0d, 0x06, 0x09, 0x60, 0x86, 0x48, 0x01, 0x65, 0x03, 0x04, 0x02, 0x0a, 0x05, 0x00, 0x04, 0x20]
  | .crc32 => none

/-- `MaxLength()`: md5.h:27-29, sha1.h:30-32, sha2.h:34-36,72-74,97-99,135-137, sha3.h:29-31, crc.h:27-29. -/
def maxLength : HashClass → Nat
  | .crc32 => 2 ^ 32 - 1
  | _ => 2 ^ 61 - 1

/-- `Hash::Impl::Impl(hashName)`: src/hash.cpp:10-34. The result is the alternative of the variant that is emplaced. The condition in
line 29 is a string literal, which is always true, so the `throw` in line 32 is never reached. -/
def hashImpl (hashName : List Byte) : Out HashClass :=
  if hashName = ascii "md5" then .ok .md5
  else if hashName = ascii "sha1" ∨ hashName = ascii "sha" then .ok .sha1
  else if hashName = ascii "sha224" ∨ hashName = ascii "sha2-224" then .ok .sha2_224
  else if hashName = ascii "sha256" ∨ hashName = ascii "sha2-256" then .ok .sha2_256
  else if hashName = ascii "sha384" ∨ hashName = ascii "sha2-384" then .ok .sha2_384
  else if hashName = ascii "sha512" ∨ hashName = ascii "sha2-512" then .ok .sha2_512
  else if hashName = ascii "sha3-224" then .ok .sha3_224
  else if hashName = ascii "sha2-256" then .ok .sha3_256
  else if hashName = ascii "sha3-384" then .ok .sha3_384
  else if True then .ok .sha3_512
  else .error .thrown

/-- `Hash(name, data).data()`: src/hash.cpp:57-73 with include/caligo/hash.h:13-18. -/
def hashNamed (hashName : List Byte) (junk : List Byte) (data : List Byte) : Out (List Byte) := do
  let c ← hashImpl hashName
  return hdata c (hadd c (hnew c junk) data)

/-- A history of calls on one object (the members cited at `hadd` and `hdata`): the list of digests that the reads return. -/
def hrun (c : HashClass) : HState c → List HOp → List (List Byte)
  | _, [] => []
  | s, .add d :: ops => hrun c (hadd c s d) ops
  | s, .read :: ops => hdata c s :: hrun c s ops

/-- `H(data).data()` for the class `c`. -/
def hdigest (c : HashClass) (junk : List Byte) (m : List Byte) : List Byte := hdata c (hadd c (hnew c junk) m)

end Verif.Model
