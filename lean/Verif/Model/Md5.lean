import Verif.Model.BlockHash

/-! Model of src/md5.cpp. -/

namespace Verif.Model

/-- `h[4]` : include/caligo/md5.h:36 -/
abbrev Md5H := U32 × U32 × U32 × U32

/-- `K[64]` : src/md5.cpp:13-30 -/
def md5K : List U32 := [
  0xd76aa478, 0xe8c7b756, 0x242070db, 0xc1bdceee, 0xf57c0faf, 0x4787c62a, 0xa8304613, 0xfd469501,
  0x698098d8, 0x8b44f7af, 0xffff5bb1, 0x895cd7be, 0x6b901122, 0xfd987193, 0xa679438e, 0x49b40821,
  0xf61e2562, 0xc040b340, 0x265e5a51, 0xe9b6c7aa, 0xd62f105d, 0x02441453, 0xd8a1e681, 0xe7d3fbc8,
  0x21e1cde6, 0xc33707d6, 0xf4d50d87, 0x455a14ed, 0xa9e3e905, 0xfcefa3f8, 0x676f02d9, 0x8d2a4c8a,
  0xfffa3942, 0x8771f681, 0x6d9d6122, 0xfde5380c, 0xa4beea44, 0x4bdecfa9, 0xf6bb4b60, 0xbebfbc70,
  0x289b7ec6, 0xeaa127fa, 0xd4ef3085, 0x04881d05, 0xd9d4d039, 0xe6db99e5, 0x1fa27cf8, 0xc4ac5665,
  0xf4292244, 0x432aff97, 0xab9423a7, 0xfc93a039, 0x655b59c3, 0x8f0ccc92, 0xffeff47d, 0x85845dd1,
  0x6fa87e4f, 0xfe2ce6e0, 0xa3014314, 0x4e0811a1, 0xf7537e82, 0xbd3af235, 0x2ad7d2bb, 0xeb86d391]

/-- `s[64]` : src/md5.cpp:32-37 -/
def md5s : List Nat := [
  7, 12, 17, 22, 7, 12, 17, 22, 7, 12, 17, 22, 7, 12, 17, 22,
  5, 9, 14, 20, 5, 9, 14, 20, 5, 9, 14, 20, 5, 9, 14, 20,
  4, 11, 16, 23, 4, 11, 16, 23, 4, 11, 16, 23, 4, 11, 16, 23,
  6, 10, 15, 21, 6, 10, 15, 21, 6, 10, 15, 21, 6, 10, 15, 21]

/-- `rotate` : src/md5.cpp:95-97, src/sha1.cpp:70-72 -/
def rotate (value : U32) (left : Nat) : U32 := (value <<< left) ^^^ (value >>> (32 - left))

/-- `chunk[i]` widened to 32 bits; the reads in the code stay inside the 64-byte array. -/
def byte32 (chunk : List Byte) (i : Nat) : U32 := (chunk.getD i 0#8).setWidth 32

/-- The body of the loop of `processChunk` : src/md5.cpp:102-123. -/
def md5Step (chunk : List Byte) (i : Nat) (st : Md5H) : Md5H :=
  let (a, b, c, d) := st
  let (f, g) :=
    if i < 16 then ((b &&& c) ||| ((~~~b) &&& d), i)
    else if i < 32 then ((d &&& b) ||| ((~~~d) &&& c), (5 * i + 1) % 16)
    else if i < 48 then (b ^^^ c ^^^ d, (3 * i + 5) % 16)
    else (c ^^^ (b ||| (~~~d)), (7 * i) % 16)
  let msgword := byte32 chunk (4 * g) ||| (byte32 chunk (4 * g + 1) <<< 8) ||| (byte32 chunk (4 * g + 2) <<< 16) |||
    (byte32 chunk (4 * g + 3) <<< 24)
  let f := f + a + md5K.getD i 0#32 + msgword
  (d, b + rotate f (md5s.getD i 0), b, c)

/-- `processChunk` : src/md5.cpp:99-127 -/
def md5Compress (h : Md5H) (chunk : List Byte) : Md5H :=
  let (a, b, c, d) := (List.range 64).foldl (fun st i => md5Step chunk i st) h
  (h.1 + a, h.2.1 + b, h.2.2.1 + c, h.2.2.2 + d)

/-- Output loop : src/md5.cpp:76-82 (least significant byte of each word first) -/
def md5Out (h : Md5H) : List Byte :=
  [h.1, h.2.1, h.2.2.1, h.2.2.2].flatMap
    (fun (w : U32) => (List.range 4).map (fun j => ((w >>> (8 * j)) &&& 0xFF#32).setWidth 8))

/-- class `MD5` : include/caligo/md5.h:12-38, src/md5.cpp:6-11 -/
def md5 : BlockAlg where
  σ := Md5H
  B := 64
  Bpos := by decide
  L := 8
  littleEndian := true
  init := (0x67452301, 0xefcdab89, 0x98badcfe, 0x10325476)
  compress := md5Compress
  out := md5Out

end Verif.Model
