import Verif.Model.Md5

/-! Model of src/sha1.cpp. -/

namespace Verif.Model

/-- `h[5]` : include/caligo/sha1.h:36 -/
abbrev Sha1H := U32 × U32 × U32 × U32 × U32

/-- First loop of `processChunk` : src/sha1.cpp:76-82 -/
def sha1Load (chunk : List Byte) : List U32 :=
  (List.range 16).map (fun n =>
    (List.range 4).foldl (fun (v : U32) i => (v <<< 8) ||| byte32 chunk (4 * n + i)) 0#32)

/-- Message schedule : src/sha1.cpp:75-85. The list is the part of `w[80]` written so far. -/
def sha1W (chunk : List Byte) : List U32 :=
  (List.range' 16 64).foldl (fun w i =>
    w ++ [rotate (w.getD (i - 3) 0#32 ^^^ w.getD (i - 8) 0#32 ^^^ w.getD (i - 14) 0#32 ^^^ w.getD (i - 16) 0#32) 1])
    (sha1Load chunk)

/-- The four round loops : src/sha1.cpp:87-102. The loops run over consecutive index ranges, so they are one loop with a
case distinction on the index. -/
def sha1Step (w : List U32) (st : Sha1H) (i : Nat) : Sha1H :=
  let (a, b, c, d, e) := st
  let t :=
    if i < 20 then rotate a 5 + ((b &&& c) ||| (~~~b &&& d)) + e + w.getD i 0#32 + 0x5A827999#32
    else if i < 40 then rotate a 5 + (b ^^^ c ^^^ d) + e + w.getD i 0#32 + 0x6ED9EBA1#32
    else if i < 60 then rotate a 5 + ((b &&& c) ||| (b &&& d) ||| (c &&& d)) + e + w.getD i 0#32 + 0x8F1BBCDC#32
    else rotate a 5 + (b ^^^ c ^^^ d) + e + w.getD i 0#32 + 0xCA62C1D6#32
  (t, a, rotate b 30, c, d)

/-- `processChunk` : src/sha1.cpp:74-104 -/
def sha1Compress (h : Sha1H) (chunk : List Byte) : Sha1H :=
  let w := sha1W chunk
  let (a, b, c, d, e) := (List.range 80).foldl (sha1Step w) h
  (h.1 + a, h.2.1 + b, h.2.2.1 + c, h.2.2.2.1 + d, h.2.2.2.2 + e)

/-- Output loop of one 32-bit word, most significant byte first : src/sha1.cpp:53-55, src/sha2.cpp:103-105 -/
def outBE32 (w : U32) : List Byte :=
  (List.range 4).map (fun j => ((w >>> (32 - 8 - 8 * j)) &&& 0xFF#32).setWidth 8)

/-- Output loop : src/sha1.cpp:51-57 -/
def sha1Out (h : Sha1H) : List Byte :=
  [h.1, h.2.1, h.2.2.1, h.2.2.2.1, h.2.2.2.2].flatMap outBE32

/-- class `SHA1` : include/caligo/sha1.h:12-38, src/sha1.cpp:6-12 -/
def sha1 : BlockAlg where
  σ := Sha1H
  B := 64
  Bpos := by decide
  L := 8
  littleEndian := false
  init := (0x67452301, 0xefcdab89, 0x98badcfe, 0x10325476, 0xc3d2e1f0)
  compress := sha1Compress
  out := sha1Out

end Verif.Model
