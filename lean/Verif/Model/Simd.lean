import Verif.Base.Mem

/-!
The x86-64 vector type `__m128i` and the intrinsics used by `src/aes.cpp`, `include/caligo/aes.h`, `include/caligo/ghash.h` and
`include/caligo/gcm.h`. The intrinsics are not part of /repo: they are modelled from the Intel Software Developer's Manual and the intrinsics
guide. Element 0 of any lane view is the least significant one; memory order is little-endian.
-/

namespace Verif.Model

/-- `__m128i` -/
abbrev M128 := BitVec 128

/-- Byte `i` of a vector register. -/
def byteOf (v : M128) (i : Nat) : Byte := v.extractLsb' (8 * i) 8
/-- 32-bit lane `i`. -/
def dwordOf (v : M128) (i : Nat) : U32 := v.extractLsb' (32 * i) 32
/-- 64-bit lane `i`. -/
def qwordOf (v : M128) (i : Nat) : U64 := v.extractLsb' (64 * i) 64

/-- A 32-bit lane from its four bytes. -/
def packDword (b0 b1 b2 b3 : Byte) : U32 := b3 ++ b2 ++ b1 ++ b0
/-- `_mm_setr_epi32` (used at include/caligo/ghash.h:8-13, 22) -/
def packDwords (d0 d1 d2 d3 : U32) : M128 := d3 ++ d2 ++ d1 ++ d0
/-- A register from its two 64-bit lanes. -/
def packQwords (q0 q1 : U64) : M128 := q1 ++ q0
/-- A register from its bytes. -/
def packBytes (f : Nat → Byte) : M128 :=
  packDwords (packDword (f 0) (f 1) (f 2) (f 3)) (packDword (f 4) (f 5) (f 6) (f 7)) (packDword (f 8) (f 9) (f 10) (f 11))
    (packDword (f 12) (f 13) (f 14) (f 15))

/-- The bytes of a register in memory order: `_mm_storeu_si128` into 16 bytes (used at include/caligo/gcm.h:69, 78, 106, 143, 148). -/
def storeu (v : M128) : List Byte :=
  [byteOf v 0, byteOf v 1, byteOf v 2, byteOf v 3, byteOf v 4, byteOf v 5, byteOf v 6, byteOf v 7,
   byteOf v 8, byteOf v 9, byteOf v 10, byteOf v 11, byteOf v 12, byteOf v 13, byteOf v 14, byteOf v 15]

/-- The register with the given 16 bytes. -/
def loadBytes (l : List Byte) : M128 := packBytes (fun i => l.getD i 0#8)

/-- `_mm_loadu_si128((__m128i*)(l.data() + off))` (used at src/aes.cpp:38, include/caligo/gcm.h:40-142); reading past the end is undefined
behaviour. -/
def loadu (l : List Byte) (off : Nat) : Out M128 :=
  if off + 16 ≤ l.length then .ok (loadBytes (l.drop off)) else .error .ub

/-- `_mm_storeu_si128((__m128i*)(l.data() + off), v)`; writing past the end is undefined behaviour. -/
def storeAt (l : List Byte) (off : Nat) (v : M128) : Out (List Byte) :=
  if off + 16 ≤ l.length then .ok (overwrite l off (storeu v)) else .error .ub

/-- `_mm_slli_si128(v, n)`: shift left by `n` bytes (used at src/aes.cpp:17, 41-65, include/caligo/ghash.h:26). -/
def slliSi (v : M128) (n : Nat) : M128 := v <<< (8 * n)
/-- `_mm_srli_si128(v, n)`: shift right by `n` bytes (used at src/aes.cpp:16, include/caligo/ghash.h:27). -/
def srliSi (v : M128) (n : Nat) : M128 := v >>> (8 * n)

/-- `_mm_shuffle_epi32(v, imm)` (used at src/aes.cpp:41-65, include/caligo/ghash.h:25, 28). -/
def shuffleEpi32 (v : M128) (imm : Nat) : M128 :=
  packDwords (dwordOf v (imm % 4)) (dwordOf v (imm / 4 % 4)) (dwordOf v (imm / 16 % 4)) (dwordOf v (imm / 64 % 4))

/-- A function applied to each 32-bit lane. -/
def mapDwords (f : U32 → U32) (v : M128) : M128 := packDwords (f (dwordOf v 0)) (f (dwordOf v 1)) (f (dwordOf v 2)) (f (dwordOf v 3))
/-- `_mm_srli_epi32(v, n)` (used at include/caligo/ghash.h:28). -/
def srliEpi32 (v : M128) (n : Nat) : M128 := mapDwords (· >>> n) v
/-- `_mm_slli_epi32(v, n)` (used at include/caligo/ghash.h:32). -/
def slliEpi32 (v : M128) (n : Nat) : M128 := mapDwords (· <<< n) v

/-- `v << n` on the compiler's vector type of two `long long` (used at include/caligo/ghash.h:14-16). -/
def shlQ (v : M128) (n : Nat) : M128 := packQwords (qwordOf v 0 <<< n) (qwordOf v 1 <<< n)
/-- `v >> n` on the compiler's vector type of two `long long`: the lanes are signed, the shift is arithmetic
(used at include/caligo/ghash.h:14-16). -/
def sarQ (v : M128) (n : Nat) : M128 := packQwords ((qwordOf v 0).sshiftRight n) ((qwordOf v 1).sshiftRight n)

/-- `_mm_andnot_si128(a, b)` (used at include/caligo/ghash.h:29). -/
def andnot (a b : M128) : M128 := ~~~a &&& b

/-- Carry-less product of two 64-bit lanes (`PCLMULQDQ`): the sum over the set bits `i` of `b` of `a` shifted by `i`. -/
def clmul64 (a b : U64) : M128 :=
  (List.range 64).foldl (fun acc i => if b.getLsbD i then acc ^^^ (a.setWidth 128 <<< i) else acc) 0#128
/-- `_mm_clmulepi64_si128(a, b, imm)` (used at include/caligo/ghash.h:23-25). -/
def clmulEpi64 (a b : M128) (imm : Nat) : M128 := clmul64 (qwordOf a (imm % 2)) (qwordOf b (imm / 16 % 2))

/-- The S-box of the AES instructions. -/
def sboxTable : List Byte := [
  0x63, 0x7c, 0x77, 0x7b, 0xf2, 0x6b, 0x6f, 0xc5, 0x30, 0x01, 0x67, 0x2b, 0xfe, 0xd7, 0xab, 0x76,
  0xca, 0x82, 0xc9, 0x7d, 0xfa, 0x59, 0x47, 0xf0, 0xad, 0xd4, 0xa2, 0xaf, 0x9c, 0xa4, 0x72, 0xc0,
  0xb7, 0xfd, 0x93, 0x26, 0x36, 0x3f, 0xf7, 0xcc, 0x34, 0xa5, 0xe5, 0xf1, 0x71, 0xd8, 0x31, 0x15,
  0x04, 0xc7, 0x23, 0xc3, 0x18, 0x96, 0x05, 0x9a, 0x07, 0x12, 0x80, 0xe2, 0xeb, 0x27, 0xb2, 0x75,
  0x09, 0x83, 0x2c, 0x1a, 0x1b, 0x6e, 0x5a, 0xa0, 0x52, 0x3b, 0xd6, 0xb3, 0x29, 0xe3, 0x2f, 0x84,
  0x53, 0xd1, 0x00, 0xed, 0x20, 0xfc, 0xb1, 0x5b, 0x6a, 0xcb, 0xbe, 0x39, 0x4a, 0x4c, 0x58, 0xcf,
  0xd0, 0xef, 0xaa, 0xfb, 0x43, 0x4d, 0x33, 0x85, 0x45, 0xf9, 0x02, 0x7f, 0x50, 0x3c, 0x9f, 0xa8,
  0x51, 0xa3, 0x40, 0x8f, 0x92, 0x9d, 0x38, 0xf5, 0xbc, 0xb6, 0xda, 0x21, 0x10, 0xff, 0xf3, 0xd2,
  0xcd, 0x0c, 0x13, 0xec, 0x5f, 0x97, 0x44, 0x17, 0xc4, 0xa7, 0x7e, 0x3d, 0x64, 0x5d, 0x19, 0x73,
  0x60, 0x81, 0x4f, 0xdc, 0x22, 0x2a, 0x90, 0x88, 0x46, 0xee, 0xb8, 0x14, 0xde, 0x5e, 0x0b, 0xdb,
  0xe0, 0x32, 0x3a, 0x0a, 0x49, 0x06, 0x24, 0x5c, 0xc2, 0xd3, 0xac, 0x62, 0x91, 0x95, 0xe4, 0x79,
  0xe7, 0xc8, 0x37, 0x6d, 0x8d, 0xd5, 0x4e, 0xa9, 0x6c, 0x56, 0xf4, 0xea, 0x65, 0x7a, 0xae, 0x08,
  0xba, 0x78, 0x25, 0x2e, 0x1c, 0xa6, 0xb4, 0xc6, 0xe8, 0xdd, 0x74, 0x1f, 0x4b, 0xbd, 0x8b, 0x8a,
  0x70, 0x3e, 0xb5, 0x66, 0x48, 0x03, 0xf6, 0x0e, 0x61, 0x35, 0x57, 0xb9, 0x86, 0xc1, 0x1d, 0x9e,
  0xe1, 0xf8, 0x98, 0x11, 0x69, 0xd9, 0x8e, 0x94, 0x9b, 0x1e, 0x87, 0xe9, 0xce, 0x55, 0x28, 0xdf,
  0x8c, 0xa1, 0x89, 0x0d, 0xbf, 0xe6, 0x42, 0x68, 0x41, 0x99, 0x2d, 0x0f, 0xb0, 0x54, 0xbb, 0x16]

/-- `SubByte` of the AES instructions. -/
def subByte (b : Byte) : Byte := sboxTable.getD b.toNat 0#8

/-- Multiplication by `x` in the field of the AES instructions. -/
def xtime (b : Byte) : Byte := (b <<< 1) ^^^ (if b.msb then 0x1b#8 else 0#8)

/-- `ShiftRows` of the AES instructions: row `i % 4` is rotated left by `i % 4`. -/
def niShiftRows (s : M128) : M128 := packBytes (fun i => byteOf s ((i + 4 * (i % 4)) % 16))
/-- `SubBytes` of the AES instructions. -/
def niSubBytes (s : M128) : M128 := packBytes (fun i => subByte (byteOf s i))
/-- One byte of `MixColumns`: `2a + 3b + c + d`. -/
def mixByte (a b c d : Byte) : Byte := xtime a ^^^ (xtime b ^^^ b) ^^^ c ^^^ d
/-- `MixColumns` of the AES instructions: column `i / 4`. -/
def niMixColumns (s : M128) : M128 := packBytes (fun i =>
  mixByte (byteOf s i) (byteOf s (i / 4 * 4 + (i + 1) % 4)) (byteOf s (i / 4 * 4 + (i + 2) % 4)) (byteOf s (i / 4 * 4 + (i + 3) % 4)))

/-- `_mm_aesenc_si128` (used at include/caligo/aes.h:31) -/
def aesenc (s k : M128) : M128 := niMixColumns (niSubBytes (niShiftRows s)) ^^^ k
/-- `_mm_aesenclast_si128` (used at include/caligo/aes.h:33) -/
def aesenclast (s k : M128) : M128 := niSubBytes (niShiftRows s) ^^^ k

/-- `SubWord` of `AESKEYGENASSIST`. -/
def niSubWord (x : U32) : U32 :=
  packDword (subByte (x.extractLsb' 0 8)) (subByte (x.extractLsb' 8 8)) (subByte (x.extractLsb' 16 8)) (subByte (x.extractLsb' 24 8))
/-- `RotWord` of `AESKEYGENASSIST`. -/
def niRotWord (x : U32) : U32 := x.rotateRight 8
/-- `_mm_aeskeygenassist_si128(v, rcon)` (used at src/aes.cpp:16, 41-65) -/
def aeskeygenassist (v : M128) (rcon : Byte) : M128 :=
  packDwords (niSubWord (dwordOf v 1)) (niRotWord (niSubWord (dwordOf v 1)) ^^^ rcon.setWidth 32)
    (niSubWord (dwordOf v 3)) (niRotWord (niSubWord (dwordOf v 3)) ^^^ rcon.setWidth 32)

end Verif.Model
