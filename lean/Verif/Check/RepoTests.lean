import Verif.Model.Gcm
import Verif.Model.ChaCha20
import Verif.Model.Hkdf
import Verif.Model.Prime
import Verif.Model.X25519
import Verif.Model.Base64

/-! Expectations of the repository's own tests (test/*.cpp), evaluated in the model by the kernel. These are tests of the translation, not proofs; see
DESIGN.md for the ones that were evaluated outside this file because they take the kernel too long. -/

namespace Verif.Model

/-! ### test/aes.cpp -/

/-- aes 128 -/
example : ((do let s ← aesSchedule128 (List.replicate 16 0#8) [0x00#8, 0x01#8, 0x02#8, 0x03#8, 0x04#8, 0x05#8, 0x06#8, 0x07#8, 0x08#8, 0x09#8, 0x0a#8, 0x0b#8, 0x0c#8, 0x0d#8, 0x0e#8, 0x0f#8]; let p ← loadu [0x00#8, 0x11#8, 0x22#8, 0x33#8, 0x44#8, 0x55#8, 0x66#8, 0x77#8, 0x88#8, 0x99#8, 0xaa#8, 0xbb#8, 0xcc#8, 0xdd#8, 0xee#8, 0xff#8] 0; let c ← aesEncrypt 128 s p; return decide (storeu c = [0x69#8, 0xc4#8, 0xe0#8, 0xd8#8, 0x6a#8, 0x7b#8, 0x04#8, 0x30#8, 0xd8#8, 0xcd#8, 0xb7#8, 0x80#8, 0x70#8, 0xb4#8, 0xc5#8, 0x5a#8])) == .ok true) = true := by decide +kernel

/-- aes 256 -/
example : ((do let s ← aesSchedule256 [0x00#8, 0x01#8, 0x02#8, 0x03#8, 0x04#8, 0x05#8, 0x06#8, 0x07#8, 0x08#8, 0x09#8, 0x0a#8, 0x0b#8, 0x0c#8, 0x0d#8, 0x0e#8, 0x0f#8, 0x10#8, 0x11#8, 0x12#8, 0x13#8, 0x14#8, 0x15#8, 0x16#8, 0x17#8, 0x18#8, 0x19#8, 0x1a#8, 0x1b#8, 0x1c#8, 0x1d#8, 0x1e#8, 0x1f#8]; let p ← loadu [0x00#8, 0x11#8, 0x22#8, 0x33#8, 0x44#8, 0x55#8, 0x66#8, 0x77#8, 0x88#8, 0x99#8, 0xaa#8, 0xbb#8, 0xcc#8, 0xdd#8, 0xee#8, 0xff#8] 0; let c ← aesEncrypt 256 s p; return decide (storeu c = [0x8e#8, 0xa2#8, 0xb7#8, 0xca#8, 0x51#8, 0x67#8, 0x45#8, 0xbf#8, 0xea#8, 0xfc#8, 0x49#8, 0x90#8, 0x4b#8, 0x49#8, 0x60#8, 0x89#8])) == .ok true) = true := by decide +kernel

/-! ### test/base64.cpp -/

/-- round trip -/
example : (base64d (base64 [0x54#8, 0x68#8, 0x65#8, 0x20#8, 0x71#8, 0x75#8, 0x69#8, 0x63#8, 0x6b#8, 0x20#8, 0x62#8, 0x72#8, 0x6f#8, 0x77#8, 0x6e#8, 0x20#8, 0x66#8, 0x6f#8, 0x78#8, 0x20#8, 0x6a#8, 0x75#8, 0x6d#8, 0x70#8, 0x73#8, 0x20#8, 0x6f#8, 0x76#8, 0x65#8, 0x72#8, 0x20#8, 0x74#8, 0x68#8, 0x65#8, 0x20#8, 0x6c#8, 0x61#8, 0x7a#8, 0x79#8, 0x20#8, 0x64#8, 0x6f#8, 0x67#8] true false .PlusSlash) == [0x54#8, 0x68#8, 0x65#8, 0x20#8, 0x71#8, 0x75#8, 0x69#8, 0x63#8, 0x6b#8, 0x20#8, 0x62#8, 0x72#8, 0x6f#8, 0x77#8, 0x6e#8, 0x20#8, 0x66#8, 0x6f#8, 0x78#8, 0x20#8, 0x6a#8, 0x75#8, 0x6d#8, 0x70#8, 0x73#8, 0x20#8, 0x6f#8, 0x76#8, 0x65#8, 0x72#8, 0x20#8, 0x74#8, 0x68#8, 0x65#8, 0x20#8, 0x6c#8, 0x61#8, 0x7a#8, 0x79#8, 0x20#8, 0x64#8, 0x6f#8, 0x67#8]) = true := by decide +kernel

/-! ### test/bignum.cpp -/

/-- Bignum -/
example : (bnAdd [0x80000001#32, 0x00000000#32] [0x80000002#32, 0x00000000#32] == (false, [0x00000003#32, 0x00000001#32])) = true := by decide +kernel

/-- overflow -/
example : (bnAdd [0x80000001#32, 0x80000000#32] [0x80000002#32, 0x80000000#32] == (true, [0x00000003#32, 0x00000001#32])) = true := by decide +kernel

/-- Naive reduce -/
example : ((do let a ← bnNaiveReduce 288 256 [0x00000000#32, 0x00000000#32, 0x00000000#32, 0x00000000#32, 0x00000000#32, 0x00000000#32, 0x00000000#32, 0x00000000#32, 0x00000001#32] [0xffffffed#32, 0xffffffff#32, 0xffffffff#32, 0xffffffff#32, 0xffffffff#32, 0xffffffff#32, 0xffffffff#32, 0x7fffffff#32]; let a2 ← bnMul 256 a a; let b ← bnNaiveReduce 512 256 a2 [0xffffffed#32, 0xffffffff#32, 0xffffffff#32, 0xffffffff#32, 0xffffffff#32, 0xffffffff#32, 0xffffffff#32, 0x7fffffff#32]; let c ← bnNaiveReduce 544 256 [0x00000000#32, 0x00000000#32, 0x00000000#32, 0x00000000#32, 0x00000000#32, 0x00000000#32, 0x00000000#32, 0x00000000#32, 0x00000000#32, 0x00000000#32, 0x00000000#32, 0x00000000#32, 0x00000000#32, 0x00000000#32, 0x00000000#32, 0x00000000#32, 0x00000001#32] [0xffffffed#32, 0xffffffff#32, 0xffffffff#32, 0xffffffff#32, 0xffffffff#32, 0xffffffff#32, 0xffffffff#32, 0x7fffffff#32]; return bnEq b c) == .ok true) = true := by decide +kernel

/-! ### test/chacha20.cpp -/

/-- Chacha20 quarter round -/
example : (ccQuarter [0x879531e0#32, 0xc5ecf37d#32, 0x516461b1#32, 0xc9a62f8a#32, 0x44c20ef3#32, 0x3390af7f#32, 0xd9fc690b#32, 0x2a5f714c#32, 0x53372767#32, 0xb00a5631#32, 0x974c541a#32, 0x359e9963#32, 0x5c971061#32, 0x3d631689#32, 0x2098d9d6#32, 0x91dbd320#32] 2 7 8 13 == [0x879531e0#32, 0xc5ecf37d#32, 0xbdb886dc#32, 0xc9a62f8a#32, 0x44c20ef3#32, 0x3390af7f#32, 0xd9fc690b#32, 0xcfacafd2#32, 0xe46bea80#32, 0xb00a5631#32, 0x974c541a#32, 0x359e9963#32, 0x5c971061#32, 0xccc07c79#32, 0x2098d9d6#32, 0x91dbd320#32]) = true := by decide +kernel

/-! ### test/crc.cpp -/

/-- s1 -/
example : (hashOf .crc32 [0x54#8, 0x68#8, 0x65#8, 0x20#8, 0x71#8, 0x75#8, 0x69#8, 0x63#8, 0x6b#8, 0x20#8, 0x62#8, 0x72#8, 0x6f#8, 0x77#8, 0x6e#8, 0x20#8, 0x66#8, 0x6f#8, 0x78#8, 0x20#8, 0x6a#8, 0x75#8, 0x6d#8, 0x70#8, 0x73#8, 0x20#8, 0x6f#8, 0x76#8, 0x65#8, 0x72#8, 0x20#8, 0x74#8, 0x68#8, 0x65#8, 0x20#8, 0x6c#8, 0x61#8, 0x7a#8, 0x79#8, 0x20#8, 0x64#8, 0x6f#8, 0x67#8] == [0x41#8, 0x4f#8, 0xa3#8, 0x39#8]) = true := by decide +kernel

/-- s2 -/
example : (hashOf .crc32 [0x54#8, 0x68#8, 0x65#8, 0x20#8, 0x71#8, 0x75#8, 0x69#8, 0x63#8, 0x6b#8, 0x20#8, 0x62#8, 0x72#8, 0x6f#8, 0x77#8, 0x6e#8, 0x20#8, 0x66#8, 0x6f#8, 0x78#8, 0x20#8, 0x6a#8, 0x75#8, 0x6d#8, 0x70#8, 0x73#8, 0x20#8, 0x6f#8, 0x76#8, 0x65#8, 0x72#8, 0x20#8, 0x74#8, 0x68#8, 0x65#8, 0x20#8, 0x6c#8, 0x61#8, 0x7a#8, 0x79#8, 0x20#8, 0x64#8, 0x6f#8, 0x67#8, 0x2e#8] == [0x51#8, 0x90#8, 0x25#8, 0xe9#8]) = true := by decide +kernel

/-- s3 -/
example : (hashOf .crc32 [] == [0x00#8, 0x00#8, 0x00#8, 0x00#8]) = true := by decide +kernel

/-! ### test/md5.cpp -/

/-- s1 -/
example : (hashOf .md5 [0x54#8, 0x68#8, 0x65#8, 0x20#8, 0x71#8, 0x75#8, 0x69#8, 0x63#8, 0x6b#8, 0x20#8, 0x62#8, 0x72#8, 0x6f#8, 0x77#8, 0x6e#8, 0x20#8, 0x66#8, 0x6f#8, 0x78#8, 0x20#8, 0x6a#8, 0x75#8, 0x6d#8, 0x70#8, 0x73#8, 0x20#8, 0x6f#8, 0x76#8, 0x65#8, 0x72#8, 0x20#8, 0x74#8, 0x68#8, 0x65#8, 0x20#8, 0x6c#8, 0x61#8, 0x7a#8, 0x79#8, 0x20#8, 0x64#8, 0x6f#8, 0x67#8] == [0x9e#8, 0x10#8, 0x7d#8, 0x9d#8, 0x37#8, 0x2b#8, 0xb6#8, 0x82#8, 0x6b#8, 0xd8#8, 0x1d#8, 0x35#8, 0x42#8, 0xa4#8, 0x19#8, 0xd6#8]) = true := by decide +kernel

/-- s2 -/
example : (hashOf .md5 [0x54#8, 0x68#8, 0x65#8, 0x20#8, 0x71#8, 0x75#8, 0x69#8, 0x63#8, 0x6b#8, 0x20#8, 0x62#8, 0x72#8, 0x6f#8, 0x77#8, 0x6e#8, 0x20#8, 0x66#8, 0x6f#8, 0x78#8, 0x20#8, 0x6a#8, 0x75#8, 0x6d#8, 0x70#8, 0x73#8, 0x20#8, 0x6f#8, 0x76#8, 0x65#8, 0x72#8, 0x20#8, 0x74#8, 0x68#8, 0x65#8, 0x20#8, 0x6c#8, 0x61#8, 0x7a#8, 0x79#8, 0x20#8, 0x64#8, 0x6f#8, 0x67#8, 0x2e#8] == [0xe4#8, 0xd9#8, 0x09#8, 0xc2#8, 0x90#8, 0xd0#8, 0xfb#8, 0x1c#8, 0xa0#8, 0x68#8, 0xff#8, 0xad#8, 0xdf#8, 0x22#8, 0xcb#8, 0xd0#8]) = true := by decide +kernel

/-- s3 -/
example : (hashOf .md5 [] == [0xd4#8, 0x1d#8, 0x8c#8, 0xd9#8, 0x8f#8, 0x00#8, 0xb2#8, 0x04#8, 0xe9#8, 0x80#8, 0x09#8, 0x98#8, 0xec#8, 0xf8#8, 0x42#8, 0x7e#8]) = true := by decide +kernel

/-! ### test/sha.cpp -/

/-- SHA1 abc -/
example : (hashOf .sha1 [0x61#8, 0x62#8, 0x63#8] == [0xa9#8, 0x99#8, 0x3e#8, 0x36#8, 0x47#8, 0x06#8, 0x81#8, 0x6a#8, 0xba#8, 0x3e#8, 0x25#8, 0x71#8, 0x78#8, 0x50#8, 0xc2#8, 0x6c#8, 0x9c#8, 0xd0#8, 0xd8#8, 0x9d#8]) = true := by decide +kernel

/-- SHA2<224> abc -/
example : (hashOf .sha2_224 [0x61#8, 0x62#8, 0x63#8] == [0x23#8, 0x09#8, 0x7d#8, 0x22#8, 0x34#8, 0x05#8, 0xd8#8, 0x22#8, 0x86#8, 0x42#8, 0xa4#8, 0x77#8, 0xbd#8, 0xa2#8, 0x55#8, 0xb3#8, 0x2a#8, 0xad#8, 0xbc#8, 0xe4#8, 0xbd#8, 0xa0#8, 0xb3#8, 0xf7#8, 0xe3#8, 0x6c#8, 0x9d#8, 0xa7#8]) = true := by decide +kernel

/-- SHA2<256> abc -/
example : (hashOf .sha2_256 [0x61#8, 0x62#8, 0x63#8] == [0xba#8, 0x78#8, 0x16#8, 0xbf#8, 0x8f#8, 0x01#8, 0xcf#8, 0xea#8, 0x41#8, 0x41#8, 0x40#8, 0xde#8, 0x5d#8, 0xae#8, 0x22#8, 0x23#8, 0xb0#8, 0x03#8, 0x61#8, 0xa3#8, 0x96#8, 0x17#8, 0x7a#8, 0x9c#8, 0xb4#8, 0x10#8, 0xff#8, 0x61#8, 0xf2#8, 0x00#8, 0x15#8, 0xad#8]) = true := by decide +kernel

/-- SHA2<384> abc -/
example : (hashOf .sha2_384 [0x61#8, 0x62#8, 0x63#8] == [0xcb#8, 0x00#8, 0x75#8, 0x3f#8, 0x45#8, 0xa3#8, 0x5e#8, 0x8b#8, 0xb5#8, 0xa0#8, 0x3d#8, 0x69#8, 0x9a#8, 0xc6#8, 0x50#8, 0x07#8, 0x27#8, 0x2c#8, 0x32#8, 0xab#8, 0x0e#8, 0xde#8, 0xd1#8, 0x63#8, 0x1a#8, 0x8b#8, 0x60#8, 0x5a#8, 0x43#8, 0xff#8, 0x5b#8, 0xed#8, 0x80#8, 0x86#8, 0x07#8, 0x2b#8, 0xa1#8, 0xe7#8, 0xcc#8, 0x23#8, 0x58#8, 0xba#8, 0xec#8, 0xa1#8, 0x34#8, 0xc8#8, 0x25#8, 0xa7#8]) = true := by decide +kernel

/-- SHA2<512> abc -/
example : (hashOf .sha2_512 [0x61#8, 0x62#8, 0x63#8] == [0xdd#8, 0xaf#8, 0x35#8, 0xa1#8, 0x93#8, 0x61#8, 0x7a#8, 0xba#8, 0xcc#8, 0x41#8, 0x73#8, 0x49#8, 0xae#8, 0x20#8, 0x41#8, 0x31#8, 0x12#8, 0xe6#8, 0xfa#8, 0x4e#8, 0x89#8, 0xa9#8, 0x7e#8, 0xa2#8, 0x0a#8, 0x9e#8, 0xee#8, 0xe6#8, 0x4b#8, 0x55#8, 0xd3#8, 0x9a#8, 0x21#8, 0x92#8, 0x99#8, 0x2a#8, 0x27#8, 0x4f#8, 0xc1#8, 0xa8#8, 0x36#8, 0xba#8, 0x3c#8, 0x23#8, 0xa3#8, 0xfe#8, 0xeb#8, 0xbd#8, 0x45#8, 0x4d#8, 0x44#8, 0x23#8, 0x64#8, 0x3c#8, 0xe8#8, 0x0e#8, 0x2a#8, 0x9a#8, 0xc9#8, 0x4f#8, 0xa5#8, 0x4c#8, 0xa4#8, 0x9f#8]) = true := by decide +kernel

/-! ### test/mont.cpp -/

/-- N -/
example : ((montNew 256 [0xffffffed#32, 0xffffffff#32, 0xffffffff#32, 0xffffffff#32, 0xffffffff#32, 0xffffffff#32, 0xffffffff#32, 0x7fffffff#32]).map (·.N) == .ok [0xffffffed#32, 0xffffffff#32, 0xffffffff#32, 0xffffffff#32, 0xffffffff#32, 0xffffffff#32, 0xffffffff#32, 0x7fffffff#32]) = true := by decide +kernel

/-- Ninv -/
example : ((montNew 256 [0xffffffed#32, 0xffffffff#32, 0xffffffff#32, 0xffffffff#32, 0xffffffff#32, 0xffffffff#32, 0xffffffff#32, 0x7fffffff#32]).map (·.Ninv) == .ok [0x286bca1b#32, 0x86bca1af#32, 0x6bca1af2#32, 0xbca1af28#32, 0xca1af286#32, 0xa1af286b#32, 0x1af286bc#32, 0x2f286bca#32]) = true := by decide +kernel

/-! ### test/prime.cpp -/

/-- 255 -/
example : (mrPrime 32 [0x000000ff#32] == .ok false) = true := by decide +kernel

/-- 0 -/
example : (mrPrime 32 [0x00000000#32] == .ok false) = true := by decide +kernel

/-- 1 -/
example : (mrPrime 32 [0x00000001#32] == .ok false) = true := by decide +kernel

/-- 0x123a99 -/
example : (mrPrime 32 [0x00123a99#32] == .ok false) = true := by decide +kernel

/-- 0xbc18d1 -/
example : (mrPrime 32 [0x00bc18d1#32] == .ok false) = true := by decide +kernel

/-- 4 -/
example : (mrPrime 32 [0x00000004#32] == .ok false) = true := by decide +kernel

/-- 9 -/
example : (mrPrime 32 [0x00000009#32] == .ok false) = true := by decide +kernel

/-- 0x10201 -/
example : (mrPrime 32 [0x00010201#32] == .ok false) = true := by decide +kernel

/-- 2 -/
example : (mrPrime 32 [0x00000002#32] == .ok true) = true := by decide +kernel

/-- 3 -/
example : (mrPrime 32 [0x00000003#32] == .ok true) = true := by decide +kernel

/-- 5 -/
example : (mrPrime 32 [0x00000005#32] == .ok true) = true := by decide +kernel

/-- 97 -/
example : (mrPrime 32 [0x00000061#32] == .ok true) = true := by decide +kernel

/-- 101 -/
example : (mrPrime 32 [0x00000065#32] == .ok true) = true := by decide +kernel

/-- 251 -/
example : (mrPrime 32 [0x000000fb#32] == .ok true) = true := by decide +kernel

/-- 257 -/
example : (mrPrime 32 [0x00000101#32] == .ok true) = true := by decide +kernel

/-! ### test/random.cpp -/

/-- ten values -/
example : ((genRandom64 10 randInit).1.Nodup) = true := by decide +kernel

/-! ### test/x25519.cpp -/

/-- 1+2 -/
example : ((ecAdd [0x00000001#32, 0x00000000#32, 0x00000000#32, 0x00000000#32, 0x00000000#32, 0x00000000#32, 0x00000000#32, 0x00000000#32] [0x00000002#32, 0x00000000#32, 0x00000000#32, 0x00000000#32, 0x00000000#32, 0x00000000#32, 0x00000000#32, 0x00000000#32]).map (ecEq · [0x00000003#32, 0x00000000#32, 0x00000000#32, 0x00000000#32, 0x00000000#32, 0x00000000#32, 0x00000000#32, 0x00000000#32]) == .ok true) = true := by decide +kernel

/-- pairing -/
example : ((ecAdd [0x00000008#32, 0x00000007#32, 0x00000006#32, 0x00000005#32, 0x00000004#32, 0x00000003#32, 0x00000002#32, 0x00000001#32] [0x00000080#32, 0x00000070#32, 0x00000060#32, 0x00000050#32, 0x00000040#32, 0x00000030#32, 0x00000020#32, 0x00000010#32]).map (ecEq · [0x00000088#32, 0x00000077#32, 0x00000066#32, 0x00000055#32, 0x00000044#32, 0x00000033#32, 0x00000022#32, 0x00000011#32]) == .ok true) = true := by decide +kernel

/-- overflow -/
example : ((ecAdd [0x8fffffff#32, 0x00000000#32, 0x00000000#32, 0x00000000#32, 0x00000000#32, 0x00000000#32, 0x00000000#32, 0x00000000#32] [0x70000001#32, 0x00000000#32, 0x00000000#32, 0x00000000#32, 0x00000000#32, 0x00000000#32, 0x00000000#32, 0x00000000#32]).map (fun r => (r.getD 0 9#32, r.getD 1 9#32)) == .ok (0#32, 1#32)) = true := by decide +kernel

/-- -1+1 -/
example : ((ecAdd [0x00000001#32, 0x00000000#32, 0x00000000#32, 0x00000000#32, 0x00000000#32, 0x00000000#32, 0x00000000#32, 0x00000000#32] [0xffffffff#32, 0xffffffff#32, 0xffffffff#32, 0xffffffff#32, 0xffffffff#32, 0xffffffff#32, 0xffffffff#32, 0xffffffff#32]).map (ecEq · [0x00000026#32, 0x00000000#32, 0x00000000#32, 0x00000000#32, 0x00000000#32, 0x00000000#32, 0x00000000#32, 0x00000000#32]) == .ok true) = true := by decide +kernel

/-- excessive -/
example : ((ecAdd [0xffffffff#32, 0xffffffff#32, 0xffffffff#32, 0xffffffff#32, 0xffffffff#32, 0xffffffff#32, 0xffffffff#32, 0xffffffff#32] [0xffffffff#32, 0xffffffff#32, 0xffffffff#32, 0xffffffff#32, 0xffffffff#32, 0xffffffff#32, 0xffffffff#32, 0xffffffff#32]).map (ecEq · [0x0000004a#32, 0x00000000#32, 0x00000000#32, 0x00000000#32, 0x00000000#32, 0x00000000#32, 0x00000000#32, 0x00000000#32]) == .ok true) = true := by decide +kernel

/-- 3-2 -/
example : (ecEq (ecSub [0x00000003#32, 0x00000000#32, 0x00000000#32, 0x00000000#32, 0x00000000#32, 0x00000000#32, 0x00000000#32, 0x00000000#32] [0x00000002#32, 0x00000000#32, 0x00000000#32, 0x00000000#32, 0x00000000#32, 0x00000000#32, 0x00000000#32, 0x00000000#32]) [0x00000001#32, 0x00000000#32, 0x00000000#32, 0x00000000#32, 0x00000000#32, 0x00000000#32, 0x00000000#32, 0x00000000#32]) = true := by decide +kernel

/-- a-b -/
example : (ecEq (ecSub [0x40000000#32, 0x00000001#32, 0x00000000#32, 0x00000000#32, 0x00000000#32, 0x00000000#32, 0x00000000#32, 0x00000000#32] [0x80000000#32, 0x00000000#32, 0x00000000#32, 0x00000000#32, 0x00000000#32, 0x00000000#32, 0x00000000#32, 0x00000000#32]) [0xc0000000#32, 0x00000000#32, 0x00000000#32, 0x00000000#32, 0x00000000#32, 0x00000000#32, 0x00000000#32, 0x00000000#32]) = true := by decide +kernel

/-- a2-b2 -/
example : (ecEq (ecSub [0x40000000#32, 0x00000000#32, 0x00000000#32, 0x00000000#32, 0x00000000#32, 0x00000000#32, 0x00000000#32, 0x00000041#32] [0x80000000#32, 0x00000000#32, 0x00000000#32, 0x00000000#32, 0x00000000#32, 0x00000000#32, 0x00000000#32, 0x00000000#32]) [0xc0000000#32, 0xffffffff#32, 0xffffffff#32, 0xffffffff#32, 0xffffffff#32, 0xffffffff#32, 0xffffffff#32, 0x00000040#32]) = true := by decide +kernel

/-- 1--1 -/
example : (ecEq (ecSub [0x00000001#32, 0x00000000#32, 0x00000000#32, 0x00000000#32, 0x00000000#32, 0x00000000#32, 0x00000000#32, 0x00000000#32] [0xffffffff#32, 0xffffffff#32, 0xffffffff#32, 0xffffffff#32, 0xffffffff#32, 0xffffffff#32, 0xffffffff#32, 0xffffffff#32]) [0xffffffc9#32, 0xffffffff#32, 0xffffffff#32, 0xffffffff#32, 0xffffffff#32, 0xffffffff#32, 0xffffffff#32, 0x7fffffff#32]) = true := by decide +kernel

/-- da-cb -/
example : (ecEq (ecSub [0x00000008#32, 0x00000000#32, 0x00000000#32, 0x00000000#32, 0x00000000#32, 0x00000000#32, 0x00000000#32, 0x00000000#32] [0x0000000a#32, 0x00000000#32, 0x00000000#32, 0x00000000#32, 0x00000000#32, 0x00000000#32, 0x00000000#32, 0x00000000#32]) [0xffffffeb#32, 0xffffffff#32, 0xffffffff#32, 0xffffffff#32, 0xffffffff#32, 0xffffffff#32, 0xffffffff#32, 0x7fffffff#32]) = true := by decide +kernel

/-- mul -/
example : ((ecMul [0x0000306e#32, 0x00000000#32, 0x00000000#32, 0x00000000#32, 0x00000000#32, 0x00000000#32, 0x00000000#32, 0x00000000#32] [0x0000712f#32, 0x00000000#32, 0x00000000#32, 0x00000000#32, 0x00000000#32, 0x00000000#32, 0x00000000#32, 0x00000000#32]).map (fun r => bnToString r == bnToString [0x15697232#32, 0x00000000#32, 0x00000000#32, 0x00000000#32, 0x00000000#32, 0x00000000#32, 0x00000000#32, 0x00000000#32]) == .ok true) = true := by decide +kernel

/-- mul2 -/
example : ((ecMul [0x8e661f03#32, 0x00000000#32, 0x00000000#32, 0x00000000#32, 0x00000000#32, 0x00000000#32, 0x00000000#32, 0x00000000#32] [0xb1d34337#32, 0x00000000#32, 0x00000000#32, 0x00000000#32, 0x00000000#32, 0x00000000#32, 0x00000000#32, 0x00000000#32]).map (ecEq · [0xf48772a5#32, 0x62ea1eff#32, 0x00000000#32, 0x00000000#32, 0x00000000#32, 0x00000000#32, 0x00000000#32, 0x00000000#32]) == .ok true) = true := by decide +kernel

/-- mul3 -/
example : ((ecMul [0x00000004#32, 0x00000000#32, 0x00000000#32, 0x00000000#32, 0x00000000#32, 0x00000000#32, 0x00000000#32, 0x00000000#32] [0x00000009#32, 0x00000000#32, 0x00000000#32, 0x00000000#32, 0x00000000#32, 0x00000000#32, 0x00000000#32, 0x00000000#32]).map (ecEq · [0x00000024#32, 0x00000000#32, 0x00000000#32, 0x00000000#32, 0x00000000#32, 0x00000000#32, 0x00000000#32, 0x00000000#32]) == .ok true) = true := by decide +kernel

/-- mul4 -/
example : ((ecMul [0xfffffff1#32, 0xffffffff#32, 0xffffffff#32, 0xffffffff#32, 0xffffffff#32, 0xffffffff#32, 0xffffffff#32, 0x7fffffff#32] [0x00000009#32, 0x00000000#32, 0x00000000#32, 0x00000000#32, 0x00000000#32, 0x00000000#32, 0x00000000#32, 0x00000000#32]).map (ecEq · [0x00000024#32, 0x00000000#32, 0x00000000#32, 0x00000000#32, 0x00000000#32, 0x00000000#32, 0x00000000#32, 0x00000000#32]) == .ok true) = true := by decide +kernel

/-- mod1 -/
example : (ecApplyModulus [0x00000000#32, 0x00000000#32, 0x00000000#32, 0x00000000#32, 0x00000000#32, 0x00000000#32, 0x00000000#32, 0x00000014#32] == [0x00000000#32, 0x00000000#32, 0x00000000#32, 0x00000000#32, 0x00000000#32, 0x00000000#32, 0x00000000#32, 0x00000014#32]) = true := by decide +kernel

/-- mod2 -/
example : (ecApplyModulus [0xffffffe0#32, 0xffffffff#32, 0xffffffff#32, 0xffffffff#32, 0xffffffff#32, 0xffffffff#32, 0xffffffff#32, 0x7fffffff#32] == [0xffffffe0#32, 0xffffffff#32, 0xffffffff#32, 0xffffffff#32, 0xffffffff#32, 0xffffffff#32, 0xffffffff#32, 0x7fffffff#32]) = true := by decide +kernel

/-- mod3 -/
example : (ecApplyModulus [0xfffffff0#32, 0xffffffff#32, 0xffffffff#32, 0xffffffff#32, 0xffffffff#32, 0xffffffff#32, 0xffffffff#32, 0x7fffffff#32] == [0x00000003#32, 0x00000000#32, 0x00000000#32, 0x00000000#32, 0x00000000#32, 0x00000000#32, 0x00000000#32, 0x00000000#32]) = true := by decide +kernel

/-- swap0 -/
example : (bnCtimeSwap false [0xe6db6867#32, 0x583030db#32, 0x3594c1a4#32, 0x24b15f7c#32, 0x726624ec#32, 0x26b3353b#32, 0x10a903a6#32, 0xd0ab1c4c#32] [0x00000001#32, 0x00000000#32, 0x00000000#32, 0x00000000#32, 0x00000000#32, 0x00000000#32, 0x00000000#32, 0x00000000#32] == ([0xe6db6867#32, 0x583030db#32, 0x3594c1a4#32, 0x24b15f7c#32, 0x726624ec#32, 0x26b3353b#32, 0x10a903a6#32, 0xd0ab1c4c#32], [0x00000001#32, 0x00000000#32, 0x00000000#32, 0x00000000#32, 0x00000000#32, 0x00000000#32, 0x00000000#32, 0x00000000#32])) = true := by decide +kernel

/-- swap1 -/
example : (bnCtimeSwap true [0xe6db6867#32, 0x583030db#32, 0x3594c1a4#32, 0x24b15f7c#32, 0x726624ec#32, 0x26b3353b#32, 0x10a903a6#32, 0xd0ab1c4c#32] [0x00000001#32, 0x00000000#32, 0x00000000#32, 0x00000000#32, 0x00000000#32, 0x00000000#32, 0x00000000#32, 0x00000000#32] == ([0x00000001#32, 0x00000000#32, 0x00000000#32, 0x00000000#32, 0x00000000#32, 0x00000000#32, 0x00000000#32, 0x00000000#32], [0xe6db6867#32, 0x583030db#32, 0x3594c1a4#32, 0x24b15f7c#32, 0x726624ec#32, 0x26b3353b#32, 0x10a903a6#32, 0xd0ab1c4c#32])) = true := by decide +kernel

/-- eq -/
example : ((ecEq [0xe6db6867#32, 0x583030db#32, 0x3594c1a4#32, 0x24b15f7c#32, 0x726624ec#32, 0x26b3353b#32, 0x10a903a6#32, 0xd0ab1c4c#32] [0xe6db6867#32, 0x583030db#32, 0x3594c1a4#32, 0x24b15f7c#32, 0x726624ec#32, 0x26b3353b#32, 0x10a903a6#32, 0xd0ab1c4c#32], ecEq [0xe6db6867#32, 0x583030db#32, 0x3594c1a4#32, 0x24b15f7c#32, 0x726624ec#32, 0x26b3353b#32, 0x10a903a6#32, 0xd0ab1c4c#32] [0x0000002a#32, 0x00000000#32, 0x00000000#32, 0x00000000#32, 0x00000000#32, 0x00000000#32, 0x00000000#32, 0x00000000#32], ecEq [0x00000001#32, 0x00000000#32, 0x00000000#32, 0x00000000#32, 0x00000000#32, 0x00000000#32, 0x00000000#32, 0x00000000#32] [0x0000002a#32, 0x00000000#32, 0x00000000#32, 0x00000000#32, 0x00000000#32, 0x00000000#32, 0x00000000#32, 0x00000000#32], ecEq [0xe6db6867#32, 0x583030db#32, 0x3594c1a4#32, 0x24b15f7c#32, 0x726624ec#32, 0x26b3353b#32, 0x10a903a6#32, 0xd0ab1c4c#32] [0x00000001#32, 0x00000000#32, 0x00000000#32, 0x00000000#32, 0x00000000#32, 0x00000000#32, 0x00000000#32, 0x00000000#32]) == (true, false, false, false)) = true := by decide +kernel

/-- lt -/
example : ((ecLt [0x0000002a#32, 0x00000000#32, 0x00000000#32, 0x00000000#32, 0x00000000#32, 0x00000000#32, 0x00000000#32, 0x00000000#32] [0x0000002a#32, 0x00000000#32, 0x00000000#32, 0x00000000#32, 0x00000000#32, 0x00000000#32, 0x00000000#32, 0x00000000#32], ecLt [0xe6db6867#32, 0x583030db#32, 0x3594c1a4#32, 0x24b15f7c#32, 0x726624ec#32, 0x26b3353b#32, 0x10a903a6#32, 0xd0ab1c4c#32] [0xe6db6867#32, 0x583030db#32, 0x3594c1a4#32, 0x24b15f7c#32, 0x726624ec#32, 0x26b3353b#32, 0x10a903a6#32, 0xd0ab1c4c#32], ecLt [0xe6db6867#32, 0x583030db#32, 0x3594c1a4#32, 0x24b15f7c#32, 0x726624ec#32, 0x26b3353b#32, 0x10a903a6#32, 0xd0ab1c4c#32] [0x0000002a#32, 0x00000000#32, 0x00000000#32, 0x00000000#32, 0x00000000#32, 0x00000000#32, 0x00000000#32, 0x00000000#32], ecLt [0x00000001#32, 0x00000000#32, 0x00000000#32, 0x00000000#32, 0x00000000#32, 0x00000000#32, 0x00000000#32, 0x00000000#32] [0x0000002a#32, 0x00000000#32, 0x00000000#32, 0x00000000#32, 0x00000000#32, 0x00000000#32, 0x00000000#32, 0x00000000#32], ecLt [0xe6db6867#32, 0x583030db#32, 0x3594c1a4#32, 0x24b15f7c#32, 0x726624ec#32, 0x26b3353b#32, 0x10a903a6#32, 0xd0ab1c4c#32] [0x00000001#32, 0x00000000#32, 0x00000000#32, 0x00000000#32, 0x00000000#32, 0x00000000#32, 0x00000000#32, 0x00000000#32]) == (false, false, false, true, false)) = true := by decide +kernel

end Verif.Model
