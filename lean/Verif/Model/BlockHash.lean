import Verif.Base.Basic

/-! Model of the streaming part shared, word for word, by `MD5`, `SHA1`, `SHA2<256>` and `SHA2<512>`. -/

namespace Verif.Model

/-- What differs between the four block hash classes. -/
structure BlockAlg where
  /-- type of the chaining value: `h[4]`, `h[5]`, `w[8]` -/
  σ : Type
  /-- block size: `64` in src/md5.cpp:40 and src/sha1.cpp:15, `2*hashsize` in src/sha2.cpp:18,132 -/
  B : Nat
  Bpos : 0 < B
  /-- size of the length field: 8 (src/md5.cpp:70, src/sha1.cpp:45, src/sha2.cpp:95), 16 (src/sha2.cpp:227) -/
  L : Nat
  /-- the length field is written with its least significant byte first (src/md5.cpp:71) or last -/
  littleEndian : Bool
  /-- constructor: src/md5.cpp:6-11, src/sha1.cpp:6-12, src/sha2.cpp:6-15,120-129,252-272 -/
  init : σ
  /-- `processChunk` applied to a full block -/
  compress : σ → List Byte → σ
  /-- serialisation of the chaining value -/
  out : σ → List Byte

/-- The members of a hash object: include/caligo/md5.h:35-37, sha1.h:35-37, sha2.h:39-41,102-104. -/
structure BlockState (A : BlockAlg) where
  h : A.σ
  /-- `uint8_t chunk[B]`, not initialised by the constructor -/
  chunk : List Byte
  msglength : U64

variable {A : BlockAlg}

/-- Constructor; `junk` is the content of the uninitialised `chunk` array.
src/md5.cpp:6-11, src/sha1.cpp:6-12, src/sha2.cpp:6-15 and 120-129. -/
def BlockState.new (A : BlockAlg) (junk : List Byte) : BlockState A :=
  { h := A.init, chunk := junk, msglength := 0 }

/-- `processChunk()` : src/md5.cpp:99-127, src/sha1.cpp:74-104, src/sha2.cpp:56-86 and 159-218. -/
def BlockState.processChunk (s : BlockState A) : BlockState A :=
  { s with h := A.compress s.h s.chunk }

/-- The `while` loop and the final `memcpy` of `add`; `rest` is `data` from `inoffset` on.
src/md5.cpp:54-60, src/sha1.cpp:29-35, src/sha2.cpp:32-38 and 146-152. -/
def BlockState.addLoop (s : BlockState A) (rest : List Byte) : BlockState A :=
  if A.B ≤ rest.length then
    BlockState.addLoop (BlockState.processChunk { s with chunk := overwrite s.chunk 0 (rest.take A.B) })
      (rest.drop A.B)
  else if rest.length ≠ 0 then
    { s with chunk := overwrite s.chunk 0 rest }
  else s
termination_by rest.length
decreasing_by
  have := A.Bpos
  simp only [List.length_drop]; omega

/-- `add` : src/md5.cpp:39-61, src/sha1.cpp:14-36, src/sha2.cpp:17-39 and 131-153. -/
def BlockState.add (s : BlockState A) (data : List Byte) : BlockState A :=
  let offset := s.msglength.toNat % A.B
  let s := { s with msglength := s.msglength + BitVec.ofNat 64 data.length }
  if offset ≠ 0 then
    let copyNow := min data.length (A.B - offset)
    let s := { s with chunk := overwrite s.chunk offset (data.take copyNow) }
    if offset + copyNow ≠ A.B then s
    else (s.processChunk).addLoop (data.drop copyNow)
  else s.addLoop data

/-- The length field: `len = msglength * 8` in `size_t` arithmetic, byte `i` counted from the least significant one.
src/md5.cpp:69-74, src/sha1.cpp:44-49, src/sha2.cpp:94-99 and 226-231. -/
def lenField (A : BlockAlg) (msglength : U64) : List Byte :=
  let len : U64 := msglength * 8
  let le := (List.range A.L).map (fun i => (len >>> (8 * i)).setWidth 8)
  if A.littleEndian then le else le.reverse

/-- Conversion to `std::array`: works on a copy, so it has no effect on `s`.
src/md5.cpp:63-83, src/sha1.cpp:38-58, src/sha2.cpp:88-108 and 220-240. -/
def BlockState.data (s : BlockState A) : List Byte :=
  let padsize := A.B - (s.msglength + BitVec.ofNat 64 A.L).toNat % A.B
  let zeroes : List Byte := 0x80#8 :: List.replicate A.B 0#8
  let copy := s.add (zeroes.take padsize)
  let copy := copy.add (lenField A s.msglength)
  A.out copy.h

/-- Construct, add once, read: what `Hash(data)` does everywhere in the library. -/
def BlockAlg.digest (A : BlockAlg) (junk : List Byte) (m : List Byte) : List Byte :=
  ((BlockState.new A junk).add m).data

/-- hextab rendering shared by all string conversions: src/md5.cpp:85-93, src/sha1.cpp:60-68, src/sha2.cpp:110-118,
242-250, src/sha3.cpp:41-49, src/crc.cpp:64-72. -/
def hextab : List Char := "0123456789abcdef".toList

/-- see `hextab` -/
def toHex (bytes : List Byte) : List Char :=
  bytes.flatMap (fun (c : Byte) => [hextab.getD (c >>> 4).toNat ' ', hextab.getD (c &&& 0xF#8).toNat ' '])

end Verif.Model
