import Verif.Model.Sha1

/-! Model of src/sha2.cpp and include/caligo/sha2.h. -/

namespace Verif.Model

/-- `w[8]` of `SHA2<256>` / `SHA2<512>` : include/caligo/sha2.h:40,103 -/
abbrev Sha2H (n : Nat) := BitVec n × BitVec n × BitVec n × BitVec n × BitVec n × BitVec n × BitVec n × BitVec n

/-- `rotr32` : src/sha2.cpp:41-43 -/
def rotr32 (v : U32) (count : Nat) : U32 := (v >>> count) ||| (v <<< (32 - count))

/-- `K_256[64]` : src/sha2.cpp:45-54 -/
def K256 : List U32 := [
  0x428a2f98, 0x71374491, 0xb5c0fbcf, 0xe9b5dba5, 0x3956c25b, 0x59f111f1, 0x923f82a4, 0xab1c5ed5,
  0xd807aa98, 0x12835b01, 0x243185be, 0x550c7dc3, 0x72be5d74, 0x80deb1fe, 0x9bdc06a7, 0xc19bf174,
  0xe49b69c1, 0xefbe4786, 0x0fc19dc6, 0x240ca1cc, 0x2de92c6f, 0x4a7484aa, 0x5cb0a9dc, 0x76f988da,
  0x983e5152, 0xa831c66d, 0xb00327c8, 0xbf597fc7, 0xc6e00bf3, 0xd5a79147, 0x06ca6351, 0x14292967,
  0x27b70a85, 0x2e1b2138, 0x4d2c6dfc, 0x53380d13, 0x650a7354, 0x766a0abb, 0x81c2c92e, 0x92722c85,
  0xa2bfe8a1, 0xa81a664b, 0xc24b8b70, 0xc76c51a3, 0xd192e819, 0xd6990624, 0xf40e3585, 0x106aa070,
  0x19a4c116, 0x1e376c08, 0x2748774c, 0x34b0bcb5, 0x391c0cb3, 0x4ed8aa4a, 0x5b9cca4f, 0x682e6ff3,
  0x748f82ee, 0x78a5636f, 0x84c87814, 0x8cc70208, 0x90befffa, 0xa4506ceb, 0xbef9a3f7, 0xc67178f2]

/-- Message schedule of `SHA2<256>::processChunk` : src/sha2.cpp:57-63. The list is the part of `W[64]` written so far. -/
def sha256W (chunk : List Byte) : List U32 :=
  (List.range' 16 48).foldl (fun W t =>
    W ++ [(rotr32 (W.getD (t - 2) 0#32) 17 ^^^ rotr32 (W.getD (t - 2) 0#32) 19 ^^^ (W.getD (t - 2) 0#32 >>> 10)) +
      (rotr32 (W.getD (t - 15) 0#32) 7 ^^^ rotr32 (W.getD (t - 15) 0#32) 18 ^^^ (W.getD (t - 15) 0#32 >>> 3)) +
      W.getD (t - 7) 0#32 + W.getD (t - 16) 0#32])
    ((List.range 16).map (fun t =>
      (byte32 chunk (t * 4) <<< 24) + (byte32 chunk (t * 4 + 1) <<< 16) + (byte32 chunk (t * 4 + 2) <<< 8) +
        byte32 chunk (t * 4 + 3)))

/-- Round loop body of `SHA2<256>::processChunk` : src/sha2.cpp:67-76 -/
def sha256Step (W : List U32) (st : Sha2H 32) (t : Nat) : Sha2H 32 :=
  let (a, b, c, d, e, f, g, h) := st
  let T1 := h + (rotr32 e 6 ^^^ rotr32 e 11 ^^^ rotr32 e 25) + ((e &&& f) ||| (~~~e &&& g)) + K256.getD t 0#32 + W.getD t 0#32
  let T2 := (rotr32 a 2 ^^^ rotr32 a 13 ^^^ rotr32 a 22) + ((a &&& b) ^^^ (a &&& c) ^^^ (b &&& c))
  (T1 + T2, a, b, c, d + T1, e, f, g)

/-- `w[i] += ...` : src/sha2.cpp:78-85 and 210-217 -/
def sha2Add {n : Nat} (w v : Sha2H n) : Sha2H n :=
  let (w0, w1, w2, w3, w4, w5, w6, w7) := w
  let (a, b, c, d, e, f, g, h) := v
  (w0 + a, w1 + b, w2 + c, w3 + d, w4 + e, w5 + f, w6 + g, w7 + h)

/-- `SHA2<256>::processChunk` : src/sha2.cpp:56-86 -/
def sha256Compress (w : Sha2H 32) (chunk : List Byte) : Sha2H 32 :=
  sha2Add w ((List.range 64).foldl (sha256Step (sha256W chunk)) w)

/-- Output loop of `SHA2<256>` : src/sha2.cpp:101-107 -/
def sha256Out (w : Sha2H 32) : List Byte :=
  let (w0, w1, w2, w3, w4, w5, w6, w7) := w
  [w0, w1, w2, w3, w4, w5, w6, w7].flatMap outBE32

/-- class `SHA2<256>` : include/caligo/sha2.h:14-42, src/sha2.cpp:6-15 -/
def sha256 : BlockAlg where
  σ := Sha2H 32
  B := 64
  Bpos := by decide
  L := 8
  littleEndian := false
  init := (0x6a09e667, 0xbb67ae85, 0x3c6ef372, 0xa54ff53a, 0x510e527f, 0x9b05688c, 0x1f83d9ab, 0x5be0cd19)
  compress := sha256Compress
  out := sha256Out

/-- class `SHA2<224>` : include/caligo/sha2.h:44-75 with the initial value of src/sha2.cpp:263-272; `data()` copies the
first 28 bytes of the 32-byte digest (include/caligo/sha2.h:60-65). -/
def sha224 : BlockAlg where
  σ := Sha2H 32
  B := 64
  Bpos := by decide
  L := 8
  littleEndian := false
  init := (0xc1059ed8, 0x367cd507, 0x3070dd17, 0xf70e5939, 0xffc00b31, 0x68581511, 0x64f98fa7, 0xbefa4fa4)
  compress := sha256Compress
  out := fun w => (sha256Out w).take 28

/-- `rotr64` : src/sha2.cpp:155-157 -/
def rotr64 (v : U64) (count : Nat) : U64 := (v >>> count) ||| (v <<< (64 - count))

/-- `K_512[80]` : src/sha2.cpp:160-181 -/
def K512 : List U64 := [
  0x428a2f98d728ae22, 0x7137449123ef65cd, 0xb5c0fbcfec4d3b2f, 0xe9b5dba58189dbbc,
  0x3956c25bf348b538, 0x59f111f1b605d019, 0x923f82a4af194f9b, 0xab1c5ed5da6d8118,
  0xd807aa98a3030242, 0x12835b0145706fbe, 0x243185be4ee4b28c, 0x550c7dc3d5ffb4e2,
  0x72be5d74f27b896f, 0x80deb1fe3b1696b1, 0x9bdc06a725c71235, 0xc19bf174cf692694,
  0xe49b69c19ef14ad2, 0xefbe4786384f25e3, 0x0fc19dc68b8cd5b5, 0x240ca1cc77ac9c65,
  0x2de92c6f592b0275, 0x4a7484aa6ea6e483, 0x5cb0a9dcbd41fbd4, 0x76f988da831153b5,
  0x983e5152ee66dfab, 0xa831c66d2db43210, 0xb00327c898fb213f, 0xbf597fc7beef0ee4,
  0xc6e00bf33da88fc2, 0xd5a79147930aa725, 0x06ca6351e003826f, 0x142929670a0e6e70,
  0x27b70a8546d22ffc, 0x2e1b21385c26c926, 0x4d2c6dfc5ac42aed, 0x53380d139d95b3df,
  0x650a73548baf63de, 0x766a0abb3c77b2a8, 0x81c2c92e47edaee6, 0x92722c851482353b,
  0xa2bfe8a14cf10364, 0xa81a664bbc423001, 0xc24b8b70d0f89791, 0xc76c51a30654be30,
  0xd192e819d6ef5218, 0xd69906245565a910, 0xf40e35855771202a, 0x106aa07032bbd1b8,
  0x19a4c116b8d2d0c8, 0x1e376c085141ab53, 0x2748774cdf8eeb99, 0x34b0bcb5e19b48a8,
  0x391c0cb3c5c95a63, 0x4ed8aa4ae3418acb, 0x5b9cca4f7763e373, 0x682e6ff3d6b2b8a3,
  0x748f82ee5defb2fc, 0x78a5636f43172f60, 0x84c87814a1f0ab72, 0x8cc702081a6439ec,
  0x90befffa23631e28, 0xa4506cebde82bde9, 0xbef9a3f7b2c67915, 0xc67178f2e372532b,
  0xca273eceea26619c, 0xd186b8c721c0c207, 0xeada7dd6cde0eb1e, 0xf57d4f7fee6ed178,
  0x06f067aa72176fba, 0x0a637dc5a2c898a6, 0x113f9804bef90dae, 0x1b710b35131c471b,
  0x28db77f523047d84, 0x32caab7b40c72493, 0x3c9ebe0a15c9bebc, 0x431d67c49c100d4c,
  0x4cc5d4becb3e42b6, 0x597f299cfc657e2a, 0x5fcb6fab3ad6faec, 0x6c44198c4a475817]

/-- `(uint64_t)chunk[i]` -/
def byte64 (chunk : List Byte) (i : Nat) : U64 := (chunk.getD i 0#8).setWidth 64

/-- Message schedule of `SHA2<512>::processChunk` : src/sha2.cpp:182-195. The list is the part of `W[80]` written so far. -/
def sha512W (chunk : List Byte) : List U64 :=
  (List.range' 16 64).foldl (fun W t =>
    W ++ [(rotr64 (W.getD (t - 2) 0#64) 19 ^^^ rotr64 (W.getD (t - 2) 0#64) 61 ^^^ (W.getD (t - 2) 0#64 >>> 6)) +
      (rotr64 (W.getD (t - 15) 0#64) 1 ^^^ rotr64 (W.getD (t - 15) 0#64) 8 ^^^ (W.getD (t - 15) 0#64 >>> 7)) +
      W.getD (t - 7) 0#64 + W.getD (t - 16) 0#64])
    ((List.range 16).map (fun t =>
      (byte64 chunk (t * 8) <<< 56) + (byte64 chunk (t * 8 + 1) <<< 48) + (byte64 chunk (t * 8 + 2) <<< 40) +
      (byte64 chunk (t * 8 + 3) <<< 32) + (byte64 chunk (t * 8 + 4) <<< 24) + (byte64 chunk (t * 8 + 5) <<< 16) +
      (byte64 chunk (t * 8 + 6) <<< 8) + (byte64 chunk (t * 8 + 7) <<< 0)))

/-- Round loop body of `SHA2<512>::processChunk` : src/sha2.cpp:199-208 -/
def sha512Step (W : List U64) (st : Sha2H 64) (t : Nat) : Sha2H 64 :=
  let (a, b, c, d, e, f, g, h) := st
  let T1 := h + (rotr64 e 14 ^^^ rotr64 e 18 ^^^ rotr64 e 41) + ((e &&& f) ||| (~~~e &&& g)) + K512.getD t 0#64 + W.getD t 0#64
  let T2 := (rotr64 a 28 ^^^ rotr64 a 34 ^^^ rotr64 a 39) + ((a &&& b) ^^^ (a &&& c) ^^^ (b &&& c))
  (T1 + T2, a, b, c, d + T1, e, f, g)

/-- `SHA2<512>::processChunk` : src/sha2.cpp:159-218 -/
def sha512Compress (w : Sha2H 64) (chunk : List Byte) : Sha2H 64 :=
  sha2Add w ((List.range 80).foldl (sha512Step (sha512W chunk)) w)

/-- Output loop of one 64-bit word : src/sha2.cpp:235-237 -/
def outBE64 (w : U64) : List Byte :=
  (List.range 8).map (fun j => ((w >>> (64 - 8 - 8 * j)) &&& 0xFF#64).setWidth 8)

/-- Output loop of `SHA2<512>` : src/sha2.cpp:233-239 -/
def sha512Out (w : Sha2H 64) : List Byte :=
  let (w0, w1, w2, w3, w4, w5, w6, w7) := w
  [w0, w1, w2, w3, w4, w5, w6, w7].flatMap outBE64

/-- class `SHA2<512>` : include/caligo/sha2.h:77-105, src/sha2.cpp:120-129 -/
def sha512 : BlockAlg where
  σ := Sha2H 64
  B := 128
  Bpos := by decide
  L := 16
  littleEndian := false
  init := (0x6a09e667f3bcc908, 0xbb67ae8584caa73b, 0x3c6ef372fe94f82b, 0xa54ff53a5f1d36f1,
    0x510e527fade682d1, 0x9b05688c2b3e6c1f, 0x1f83d9abfb41bd6b, 0x5be0cd19137e2179)
  compress := sha512Compress
  out := sha512Out

/-- class `SHA2<384>` : include/caligo/sha2.h:107-138 with the initial value of src/sha2.cpp:252-261; `data()` copies the
first 48 bytes of the 64-byte digest (include/caligo/sha2.h:123-128). -/
def sha384 : BlockAlg where
  σ := Sha2H 64
  B := 128
  Bpos := by decide
  L := 16
  littleEndian := false
  init := (0xcbbb9d5dc1059ed8, 0x629a292a367cd507, 0x9159015a3070dd17, 0x152fecd8f70e5939,
    0x67332667ffc00b31, 0x8eb44a8768581511, 0xdb0c2e0d64f98fa7, 0x47b5481dbefa4fa4)
  compress := sha512Compress
  out := fun w => (sha512Out w).take 48

end Verif.Model
