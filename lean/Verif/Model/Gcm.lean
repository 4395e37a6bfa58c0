import Verif.Model.Ghash
import Verif.Model.Aes

/-!
`include/caligo/gcm.h`, `include/caligo/ctr.h`, `include/caligo/key_iv_pair.h`: Galois/counter mode and counter mode over a block cipher with
16-byte blocks. `Cipher::size` is 16.

Simplifications: `size_t` sums of the form `size + 15` do not wrap (a vector of more than `2^64 - 16` bytes cannot exist). The ghost field `log`
records the blocks given to `Cipher::Encrypt`, in order; nothing reads it.
-/

namespace Verif.Model

/-- The `Cipher` template parameter: `KeySchedule(key)` and `Encrypt(schedule, block)` (include/caligo/aes.h:40-49). -/
structure Cipher (S : Type) where
  keysize : Nat
  schedule : List Byte → Out S
  encrypt : S → M128 → Out M128

/-- `AES<128>`; `junk` is the uninitialised memory of the schedule. -/
def aesCipher128 (junk : List Byte) : Cipher (List M128) := { keysize := 16, schedule := aesSchedule128 junk, encrypt := aesEncrypt 128 }
/-- `AES<256>` -/
def aesCipher256 : Cipher (List M128) := { keysize := 32, schedule := aesSchedule256, encrypt := aesEncrypt 256 }

/-- The members of `GCM` (include/caligo/gcm.h:158-161) and the ghost `log`. -/
structure Gcm (S : Type) where
  sched : S
  h : M128
  z : M128
  counter : U64
  iv : List Byte
  log : List M128

/-- `ctr_inc` (include/caligo/gcm.h:26-34, include/caligo/ctr.h:21-29) -/
def ctrInc (ctr : List Byte) : List Byte :=
  let ctr := ctr.set 15 (ctr.getD 15 0#8 + 1#8)
  if ctr.getD 15 0#8 ≠ 0#8 then ctr else
  let ctr := ctr.set 14 (ctr.getD 14 0#8 + 1#8)
  if ctr.getD 14 0#8 ≠ 0#8 then ctr else
  let ctr := ctr.set 13 (ctr.getD 13 0#8 + 1#8)
  if ctr.getD 13 0#8 ≠ 0#8 then ctr else
  ctr.set 12 (ctr.getD 12 0#8 + 1#8)

/-- One of the two data parts of `ghash`: whole blocks, then the rest padded with zeros (include/caligo/gcm.h:36, 39-47 for the additional data,
37, 48-56 for the text). -/
def gcmHashData (h chash : M128) (data : List Byte) : Out M128 := do
  let blocks := data.length / 16
  let chash ← loop blocks chash (fun chash n => do return ghashBlock (reflect (← loadu data (16 * n))) h chash)
  let bytes := data.length - blocks * 16
  if bytes > 0 then
    let buffer := (data.drop (data.length - bytes)).take bytes ++ List.replicate (16 - bytes) 0#8
    return ghashBlock (reflect (← loadu buffer 0)) h chash
  else
    return chash

/-- The array `sizes` (include/caligo/gcm.h:58-65); the products are taken modulo `2^64`. -/
def gcmSizes (textSize aadSize : Nat) : List Byte :=
  let ptsize := BitVec.ofNat 64 (textSize * 8)
  let aadsize := BitVec.ofNat 64 (aadSize * 8)
  ((List.range 8).foldl (fun (s : List Byte × U64 × U64) i =>
    let n := 7 - i
    let (sizes, aadsize, ptsize) := s
    let sizes := sizes.set n ((aadsize &&& 0xFF#64).setWidth 8)
    let sizes := sizes.set (n + 8) ((ptsize &&& 0xFF#64).setWidth 8)
    (sizes, aadsize >>> 8, ptsize >>> 8)) (List.replicate 16 0#8, aadsize, ptsize)).1

/-- `ghash` (include/caligo/gcm.h:35-71) -/
def gcmGhash (h : M128) (ciphertext aad : List Byte) : Out (List Byte) := do
  let chash := 0#128
  let chash ← gcmHashData h chash aad
  let chash ← gcmHashData h chash ciphertext
  let sizes := gcmSizes ciphertext.length aad.length
  let chash := ghashBlock (reflect (← loadu sizes 0)) h chash
  return storeu (reflect chash)

/-- `calculate_tag` (include/caligo/gcm.h:72-80) -/
def gcmTag (h z : M128) (ciphertext aad : List Byte) : Out (List Byte) := do
  let tag ← gcmGhash h ciphertext aad
  let chash := reflect (← loadu tag 0)
  let chash := chash ^^^ z
  return storeu (reflect chash)

/-- The constructor of `GCM` (include/caligo/gcm.h:13-25); `z0` is the uninitialised member `z`. -/
def gcmNew {S : Type} (C : Cipher S) (z0 : M128) (key iv : List Byte) : Out (Gcm S) := do
  let sched ← C.schedule key
  let h := reflect (← C.encrypt sched 0#128)
  let g : Gcm S := { sched := sched, h := h, z := z0, counter := 0#64, iv := iv, log := [0#128] }
  if iv.length = 8 ∨ iv.length > 12 then
    let reduced ← gcmGhash h iv []
    return { g with iv := reduced }
  else
    return g

/-- `ctr[4 + k] ^= (message_counter >> (56 - 8 k)) & 0xFF` for `k = 0..7` (include/caligo/gcm.h:85-92, 119-126, include/caligo/ctr.h:33-40) -/
def xorCounter (ctr : List Byte) (counter : U64) : List Byte :=
  (List.range 8).foldl (fun ctr k => ctr.set (4 + k) (ctr.getD (4 + k) 0#8 ^^^ ((counter >>> (56 - 8 * k)) &&& 0xFF#64).setWidth 8)) ctr

/-- The counter block at the start of a message (include/caligo/gcm.h:83-96, 117-130, include/caligo/ctr.h:31-44). An IV of more than 16 bytes
would be copied past the end of the array. -/
def ctrStart (iv : List Byte) (counter : U64) : Out (List Byte) :=
  if iv.length ≤ 16 then
    let ctr := overwrite (List.replicate 16 0#8) 0 iv
    let ctr := xorCounter ctr counter
    .ok (if iv.length = 12 then (((ctr.set 12 0#8).set 13 0#8).set 14 0#8).set 15 1#8 else ctr)
  else .error .ub

/-- The cipher call with the ghost log. -/
def encLog {S : Type} (C : Cipher S) (sched : S) (log : List M128) (block : M128) : Out (M128 × List M128) := do
  return (← C.encrypt sched block, log ++ [block])

/-- `for (size_t k = 0; k < count; k++) dst[off + k] ^= src[off + k];` (include/caligo/gcm.h:107-109, 149-151) -/
def xorInto (dst src : List Byte) (off count : Nat) : Out (List Byte) :=
  loop count dst (fun dst k => do
    let a ← rd dst (off + k)
    let b ← rd src (off + k)
    wr dst (off + k) (a ^^^ b))

/-- `vector::resize(n)` -/
def vecResize (v : List Byte) (n : Nat) : List Byte := v.take n ++ List.replicate (n - v.length) 0#8

/-- One pass of the loop of `Decrypt` (include/caligo/gcm.h:104-109) -/
def gcmDecBlock {S : Type} (C : Cipher S) (sched : S) (ciphertext : List Byte) (s : List Byte × List Byte × List M128) (n : Nat) :
    Out (List Byte × List Byte × List M128) := do
  let (ctr, plaintext, log) := s
  let ctr := ctrInc ctr
  let (block, log) ← encLog C sched log (← loadu ctr 0)
  let plaintext ← storeAt plaintext (n * 16) block
  let plaintext ← xorInto plaintext ciphertext (n * 16) (min (ciphertext.length - n * 16) 16)
  return (ctr, plaintext, log)

/-- `GCM::Decrypt` (include/caligo/gcm.h:81-114) -/
def gcmDecrypt {S : Type} (C : Cipher S) (g : Gcm S) (ciphertext aad tag : List Byte) : Out ((List Byte × Bool) × Gcm S) := do
  if g.iv.length < 12 then return (([], false), g)
  let ctr ← ctrStart g.iv g.counter
  let (e, log) ← encLog C g.sched g.log (← loadu ctr 0)
  let g := { g with z := reflect e, counter := g.counter + 1#64 }
  let blocks := (ciphertext.length + 16 - 1) / 16
  let plaintext := List.replicate (blocks * 16) 0#8
  let (_, plaintext, log) ← loop blocks (ctr, plaintext, log) (gcmDecBlock C g.sched ciphertext)
  let plaintext := vecResize plaintext ciphertext.length
  let calcTag ← gcmTag g.h g.z ciphertext aad
  return ((plaintext, decide (g.iv.length ≥ 8) && decide (calcTag = tag)), { g with log := log })

/-- One pass of the first loop of `Encrypt` (include/caligo/gcm.h:140-143) -/
def gcmEncBlock {S : Type} (C : Cipher S) (sched : S) (plaintext : List Byte) (s : List Byte × List Byte × List M128) (n : Nat) :
    Out (List Byte × List Byte × List M128) := do
  let (ctr, ciphertext, log) := s
  let ctr := ctrInc ctr
  let (block, log) ← encLog C sched log (← loadu ctr 0)
  let block := block ^^^ (← loadu plaintext (n * 16))
  let ciphertext ← storeAt ciphertext (n * 16) block
  return (ctr, ciphertext, log)

/-- One pass of the second loop of `Encrypt` (include/caligo/gcm.h:146-152), with `n = full + i` -/
def gcmEncLast {S : Type} (C : Cipher S) (sched : S) (plaintext : List Byte) (full : Nat) (s : List Byte × List Byte × List M128) (i : Nat) :
    Out (List Byte × List Byte × List M128) := do
  let (ctr, ciphertext, log) := s
  let n := full + i
  let ctr := ctrInc ctr
  let (block, log) ← encLog C sched log (← loadu ctr 0)
  let ciphertext ← storeAt ciphertext (n * 16) block
  let ciphertext ← xorInto ciphertext plaintext (n * 16) (min (plaintext.length - n * 16) 16)
  return (ctr, vecResize ciphertext plaintext.length, log)

/-- `GCM::Encrypt` (include/caligo/gcm.h:115-157) -/
def gcmEncrypt {S : Type} (C : Cipher S) (g : Gcm S) (plaintext aad : List Byte) : Out ((List Byte × List Byte) × Gcm S) := do
  if g.iv.length < 12 then return (([], List.replicate 16 0#8), g)
  let ctr ← ctrStart g.iv g.counter
  let (e, log) ← encLog C g.sched g.log (← loadu ctr 0)
  let g := { g with z := reflect e, counter := g.counter + 1#64 }
  let blocks := (plaintext.length + 16 - 1) / 16
  let ciphertext := List.replicate (blocks * 16) 0#8
  let lastBlockPartial := plaintext.length != blocks * 16
  let full := if lastBlockPartial then blocks - 1 else blocks
  let (ctr, ciphertext, log) ← loop full (ctr, ciphertext, log) (gcmEncBlock C g.sched plaintext)
  let (_, ciphertext, log) ← loop (blocks - full) (ctr, ciphertext, log) (gcmEncLast C g.sched plaintext full)
  let calcTag ← gcmTag g.h g.z ciphertext aad
  return ((ciphertext, calcTag), { g with log := log })

/-! ### `include/caligo/ctr.h` -/

/-- The members of `CTR` (include/caligo/ctr.h:70-72) and the ghost `log`. -/
structure Ctr (S : Type) where
  sched : S
  counter : U64
  iv : List Byte
  log : List M128

/-- The constructor of `CTR` (include/caligo/ctr.h:12-20): the schedule is constructed before the sizes are checked. -/
def ctrNew {S : Type} (C : Cipher S) (key iv : List Byte) : Out (Ctr S) := do
  let sched ← C.schedule key
  if key.length ≠ C.keysize ∨ iv.length ≠ 16 then throw .thrown
  return { sched := sched, counter := 0#64, iv := iv, log := [] }

/-- One pass of the loop of `GenerateKeystream` (include/caligo/ctr.h:51-53) -/
def ctrBlock {S : Type} (C : Cipher S) (sched : S) (s : List Byte × List Byte × List M128) (n : Nat) :
    Out (List Byte × List Byte × List M128) := do
  let (ctr, cap, log) := s
  let ctr := ctrInc ctr
  let (block, log) ← encLog C sched log (← loadu ctr 0)
  let cap ← storeAt cap (n * 16) block
  return (ctr, cap, log)

/-- `GenerateKeystream` (include/caligo/ctr.h:30-57). The blocks are stored into memory that is reserved but lies beyond the (zero) size of the
vector (line 53); `resize` (line 55) then appends value-initialised elements, that is zeros, over them. The model keeps the reserved memory as
`cap`; it is lost at the end, as in the code. -/
def ctrKeystream {S : Type} (C : Cipher S) (g : Ctr S) (size : Nat) : Out (List Byte × Ctr S) := do
  let ctr ← ctrStart g.iv g.counter
  let blocks := (size + 16 - 1) / 16
  let (_, _cap, log) ← loop blocks (ctr, List.replicate (blocks * 16) 0#8, g.log) (ctrBlock C g.sched)
  let keystream : List Byte := vecResize [] size
  return (keystream, { g with counter := g.counter + 1#64, log := log })

/-- `CTR::Encrypt` and `CTR::Decrypt` (include/caligo/ctr.h:58-69): the same code. -/
def ctrCrypt {S : Type} (C : Cipher S) (g : Ctr S) (data : List Byte) : Out (List Byte × Ctr S) := do
  let (keystream, g) ← ctrKeystream C g data.length
  let data ← xorInto data keystream 0 data.length
  return (data, g)

end Verif.Model
