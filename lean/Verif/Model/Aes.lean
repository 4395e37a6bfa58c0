import Verif.Model.Simd

/-!
`src/aes.cpp` and `include/caligo/aes.h`: AES-128 and AES-256 encryption with the AES-NI instructions.
The private members of the friend class are visible; `AES<bits>::Encrypt` (include/caligo/aes.h:40-49) is `AesEncrypt`.
-/

namespace Verif.Model

/-- `roundConstants` (src/aes.cpp:15) -/
def roundConstants : List Byte := [0x01, 0x02, 0x04, 0x08, 0x10, 0x20, 0x40, 0x80, 0x1B, 0x36]

/-- `nextRoundKey<round>` (src/aes.cpp:13-18) -/
def nextRoundKey (round : Nat) (inp : M128) : M128 :=
  let t := inp ^^^ srliSi (aeskeygenassist inp (roundConstants.getD round 0#8)) 0x0c
  t ^^^ slliSi t 0x4 ^^^ slliSi t 0x8 ^^^ slliSi t 0xC

/-- The chain of `eroundKeys[1..10]` (src/aes.cpp:24-33). -/
def aesChain128 (k0 : M128) : List M128 :=
  let k1 := nextRoundKey 0 k0
  let k2 := nextRoundKey 1 k1
  let k3 := nextRoundKey 2 k2
  let k4 := nextRoundKey 3 k3
  let k5 := nextRoundKey 4 k4
  let k6 := nextRoundKey 5 k5
  let k7 := nextRoundKey 6 k6
  let k8 := nextRoundKey 7 k7
  let k9 := nextRoundKey 8 k8
  let k10 := nextRoundKey 9 k9
  [k0, k1, k2, k3, k4, k5, k6, k7, k8, k9, k10]

/-- `AesKeySchedule<128>::AesKeySchedule(key)` (src/aes.cpp:20-34). The array of round keys (include/caligo/aes.h:20-21) is 176 bytes and not
initialised: `junk` is what it holds before the `memcpy`. More than 176 key bytes are written past its end. -/
def aesSchedule128 (junk : List Byte) (key : List Byte) : Out (List M128) :=
  if key.length ≤ 176 then .ok (aesChain128 (loadBytes (overwrite junk 0 key))) else .error .ub

/-- `a ^= slli(a,4) ^ slli(a,8) ^ slli(a,12) ^ shuffle(aeskeygenassist(b, rc), 0xff)` (src/aes.cpp:41, 45, 49, 53, 57, 61, 65) -/
def aesStepA (a b : M128) (rc : Byte) : M128 :=
  a ^^^ (slliSi a 0x4 ^^^ slliSi a 0x8 ^^^ slliSi a 0xC ^^^ shuffleEpi32 (aeskeygenassist b rc) 0xff)

/-- `b ^= slli(b,4) ^ slli(b,8) ^ slli(b,12) ^ shuffle(aeskeygenassist(a, 0), 0xaa)` (src/aes.cpp:42, 46, 50, 54, 58, 62) -/
def aesStepB (a b : M128) : M128 :=
  b ^^^ (slliSi b 0x4 ^^^ slliSi b 0x8 ^^^ slliSi b 0xC ^^^ shuffleEpi32 (aeskeygenassist a 0x0#8) 0xaa)

/-- The assignments to `eroundKeys` (src/aes.cpp:39-66). -/
def aesChain256 (a b : M128) : List M128 :=
  let a1 := aesStepA a b 0x01#8
  let b1 := aesStepB a1 b
  let a2 := aesStepA a1 b1 0x02#8
  let b2 := aesStepB a2 b1
  let a3 := aesStepA a2 b2 0x04#8
  let b3 := aesStepB a3 b2
  let a4 := aesStepA a3 b3 0x08#8
  let b4 := aesStepB a4 b3
  let a5 := aesStepA a4 b4 0x10#8
  let b5 := aesStepB a5 b4
  let a6 := aesStepA a5 b5 0x20#8
  let b6 := aesStepB a6 b5
  let a7 := aesStepA a6 b6 0x40#8
  [a, b, a1, b1, a2, b2, a3, b3, a4, b4, a5, b5, a6, b6, a7]

/-- `AesKeySchedule<256>::AesKeySchedule(key)` (src/aes.cpp:36-67). A key of fewer than 32 bytes is read past its end. -/
def aesSchedule256 (key : List Byte) : Out (List M128) := do
  let a ← loadu key 0
  let b ← loadu key 16
  return aesChain256 a b

/-- `rounds` (include/caligo/aes.h:20) -/
def aesRounds (bits : Nat) : Nat := 6 + bits / 32

/-- `AesEncrypt` (include/caligo/aes.h:26-38) -/
def aesEncrypt (bits : Nat) (eroundKeys : List M128) (block : M128) : Out M128 := do
  let block := block ^^^ (← rd eroundKeys 0)
  let block ← loop (aesRounds bits - 1) block (fun block n => do return aesenc block (← rd eroundKeys (n + 1)))
  return aesenclast block (← rd eroundKeys (aesRounds bits))

end Verif.Model
