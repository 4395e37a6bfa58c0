import Verif.Model.Leak
import Verif.Model.Gcm

/-! The events (see `Model.Leak`) of AES, GCM and the comparison of tags. A copy of a range of bytes, the load and the store of a register and a vector resize give the
event of an access at the first index and, where the length is not a constant, of one at the length. Simplification: two arrays are compared as `std::equal` is described,
element by element up to the first difference; an implementation may compare several bytes at a time. -/

namespace Verif.Model

/-! ### src/aes.cpp, include/caligo/aes.h -/

/-- A cipher with events: `KeySchedule(key)` and `Encrypt(schedule, block)`. -/
structure CipherL (S : Type) where
  keysize : Nat
  schedule : List Byte → Leak S
  encrypt : S → M128 → Leak M128

/-- The cipher without the events. -/
def CipherL.plain {S : Type} (C : CipherL S) : Cipher S :=
  { keysize := C.keysize, schedule := fun k => (C.schedule k).res, encrypt := fun s b => (C.encrypt s b).res }

/-- `_mm_loadu_si128` -/
def loaduL (l : List Byte) (off : Nat) : Leak M128 := (loadu l off, [.addr off])

/-- `_mm_storeu_si128` -/
def storeAtL (l : List Byte) (off : Nat) (v : M128) : Leak (List Byte) := (storeAt l off v, [.addr off])

/-- The event of the write of a round key -/
def roundKeys (n : Nat) : Leak Unit := (.ok (), (List.range n).map .addr)

/-- `AesKeySchedule<128>::AesKeySchedule(key)` : src/aes.cpp:20-34 -/
def aesSchedule128L (junk : List Byte) (key : List Byte) : Leak (List M128) := do
  emit (.addr key.length)
  roundKeys 11
  Leak.ofOut (aesSchedule128 junk key)

/-- `AesKeySchedule<256>::AesKeySchedule(key)` : src/aes.cpp:36-67 -/
def aesSchedule256L (key : List Byte) : Leak (List M128) := do
  let a ← loaduL key 0
  let b ← loaduL key 16
  roundKeys 15
  return aesChain256 a b

/-- `AesEncrypt` : include/caligo/aes.h:26-38 -/
def aesEncryptL (bits : Nat) (eroundKeys : List M128) (block : M128) : Leak M128 := do
  let k ← rdL eroundKeys 0
  let block ← loopL (aesRounds bits - 1) (block ^^^ k) (fun block n => do
    let k ← rdL eroundKeys (n + 1)
    return aesenc block k)
  let k ← rdL eroundKeys (aesRounds bits)
  return aesenclast block k

/-- `AES<128>` -/
def aesCipher128L (junk : List Byte) : CipherL (List M128) := { keysize := 16, schedule := aesSchedule128L junk, encrypt := aesEncryptL 128 }
/-- `AES<256>` -/
def aesCipher256L : CipherL (List M128) := { keysize := 32, schedule := aesSchedule256L, encrypt := aesEncryptL 256 }

/-! ### include/caligo/gcm.h -/

/-- `ctr_inc` : include/caligo/gcm.h:26-34 -/
def ctrIncL (ctr : List Byte) : Leak (List Byte) := do
  emit (.addr 15)
  let ctr := ctr.set 15 (ctr.getD 15 0#8 + 1#8)
  emit (.branch (ctr.getD 15 0#8 != 0#8))
  if ctr.getD 15 0#8 ≠ 0#8 then return ctr else
  emit (.addr 14)
  let ctr := ctr.set 14 (ctr.getD 14 0#8 + 1#8)
  emit (.branch (ctr.getD 14 0#8 != 0#8))
  if ctr.getD 14 0#8 ≠ 0#8 then return ctr else
  emit (.addr 13)
  let ctr := ctr.set 13 (ctr.getD 13 0#8 + 1#8)
  emit (.branch (ctr.getD 13 0#8 != 0#8))
  if ctr.getD 13 0#8 ≠ 0#8 then return ctr else
  emit (.addr 12)
  return ctr.set 12 (ctr.getD 12 0#8 + 1#8)

/-- One of the two data parts of `ghash` : include/caligo/gcm.h:36,39-47 and 37,48-56 -/
def gcmHashDataL (h chash : M128) (data : List Byte) : Leak M128 := do
  let blocks := data.length / 16
  let chash ← loopL blocks chash (fun chash n => do
    let b ← loaduL data (16 * n)
    return ghashBlock (reflect b) h chash)
  let bytes := data.length - blocks * 16
  emit (.branch (bytes > 0))
  if bytes > 0 then
    emit (.addr (data.length - bytes))
    emit (.addr bytes)
    let buffer := (data.drop (data.length - bytes)).take bytes ++ List.replicate (16 - bytes) 0#8
    let b ← loaduL buffer 0
    return ghashBlock (reflect b) h chash
  else
    return chash

/-- `ghash` : include/caligo/gcm.h:35-71; the loop over the eight bytes of the sizes is one event. -/
def gcmGhashL (h : M128) (ciphertext aad : List Byte) : Leak (List Byte) := do
  let chash ← gcmHashDataL h 0#128 aad
  let chash ← gcmHashDataL h chash ciphertext
  let sizes := gcmSizes ciphertext.length aad.length
  let b ← loaduL sizes 0
  return storeu (reflect (ghashBlock (reflect b) h chash))

/-- `calculate_tag` : include/caligo/gcm.h:72-80 -/
def gcmTagL (h z : M128) (ciphertext aad : List Byte) : Leak (List Byte) := do
  let tag ← gcmGhashL h ciphertext aad
  let b ← loaduL tag 0
  return storeu (reflect (reflect b ^^^ z))

/-- The constructor of `GCM` : include/caligo/gcm.h:13-25 -/
def gcmNewL {S : Type} (C : CipherL S) (z0 : M128) (key iv : List Byte) : Leak (Gcm S) := do
  let sched ← C.schedule key
  let e ← C.encrypt sched 0#128
  let h := reflect e
  let g : Gcm S := { sched := sched, h := h, z := z0, counter := 0#64, iv := iv, log := [0#128] }
  emit (.branch (iv.length = 8 ∨ iv.length > 12))
  if iv.length = 8 ∨ iv.length > 12 then
    let reduced ← gcmGhashL h iv []
    return { g with iv := reduced }
  else
    return g

/-- The counter block at the start of a message : include/caligo/gcm.h:83-96,117-130 -/
def ctrStartL (iv : List Byte) (counter : U64) : Leak (List Byte) := do
  emit (.addr iv.length)
  emit (.branch (iv.length = 12))
  Leak.ofOut (ctrStart iv counter)

/-- The cipher call with the ghost log. -/
def encLogL {S : Type} (C : CipherL S) (sched : S) (log : List M128) (block : M128) : Leak (M128 × List M128) := do
  let e ← C.encrypt sched block
  return (e, log ++ [block])

/-- `for (size_t k = 0; k < count; k++) dst[off + k] ^= src[off + k];` : include/caligo/gcm.h:107-109,149-151 -/
def xorIntoL (dst src : List Byte) (off count : Nat) : Leak (List Byte) :=
  loopL count dst (fun dst k => do
    let a ← rdL dst (off + k)
    let b ← rdL src (off + k)
    wrL dst (off + k) (a ^^^ b))

/-- One pass of the loop of `Decrypt` : include/caligo/gcm.h:104-109 -/
def gcmDecBlockL {S : Type} (C : CipherL S) (sched : S) (ciphertext : List Byte) (s : List Byte × List Byte × List M128) (n : Nat) :
    Leak (List Byte × List Byte × List M128) := do
  let ctr ← ctrIncL s.1
  let b ← loaduL ctr 0
  let e ← encLogL C sched s.2.2 b
  let plaintext ← storeAtL s.2.1 (n * 16) e.1
  let plaintext ← xorIntoL plaintext ciphertext (n * 16) (min (ciphertext.length - n * 16) 16)
  return (ctr, plaintext, e.2)

/-- `calc_tag == tag` on `std::array<uint8_t, 16>` : include/caligo/gcm.h:113; `i` is the index. -/
def equalL (i : Nat) : List Byte → List Byte → Leak Bool
  | [], [] => do
    emit (.branch false)
    return true
  | a :: as, b :: bs => do
    emit (.branch true)
    emit (.addr i)
    emit (.branch (a == b))
    if a == b then equalL (i + 1) as bs else return false
  | _, _ => return false

/-- `GCM::Decrypt` up to the comparison of the tags : include/caligo/gcm.h:81-112. The result is nothing for a short IV; else the plaintext, the tag and the new state. -/
def gcmDecMainL {S : Type} (C : CipherL S) (g : Gcm S) (ciphertext aad : List Byte) : Leak (Option (List Byte × List Byte × Gcm S)) := do
  emit (.branch (g.iv.length < 12))
  if g.iv.length < 12 then return none else
  let ctr ← ctrStartL g.iv g.counter
  let b ← loaduL ctr 0
  let e ← encLogL C g.sched g.log b
  let blocks := (ciphertext.length + 16 - 1) / 16
  let s ← loopL blocks (ctr, List.replicate (blocks * 16) 0#8, e.2) (gcmDecBlockL C g.sched ciphertext)
  let calcTag ← gcmTagL g.h (reflect e.1) ciphertext aad
  return some (vecResize s.2.1 ciphertext.length, calcTag, { g with z := reflect e.1, counter := g.counter + 1#64, log := s.2.2 })

/-- `GCM::Decrypt` : include/caligo/gcm.h:81-114 -/
def gcmDecryptL {S : Type} (C : CipherL S) (g : Gcm S) (ciphertext aad tag : List Byte) : Leak ((List Byte × Bool) × Gcm S) := do
  let m ← gcmDecMainL C g ciphertext aad
  match m with
  | none => return (([], false), g)
  | some p =>
    emit (.branch (g.iv.length ≥ 8))
    let eq ← (if g.iv.length ≥ 8 then equalL 0 p.2.1 tag else pure false)
    return ((p.1, eq), p.2.2)

/-- One pass of the first loop of `Encrypt` : include/caligo/gcm.h:140-143 -/
def gcmEncBlockL {S : Type} (C : CipherL S) (sched : S) (plaintext : List Byte) (s : List Byte × List Byte × List M128) (n : Nat) :
    Leak (List Byte × List Byte × List M128) := do
  let ctr ← ctrIncL s.1
  let b ← loaduL ctr 0
  let e ← encLogL C sched s.2.2 b
  let p ← loaduL plaintext (n * 16)
  let ciphertext ← storeAtL s.2.1 (n * 16) (e.1 ^^^ p)
  return (ctr, ciphertext, e.2)

/-- One pass of the second loop of `Encrypt` : include/caligo/gcm.h:146-152, with `n = full + i` -/
def gcmEncLastL {S : Type} (C : CipherL S) (sched : S) (plaintext : List Byte) (full : Nat) (s : List Byte × List Byte × List M128) (i : Nat) :
    Leak (List Byte × List Byte × List M128) := do
  let n := full + i
  let ctr ← ctrIncL s.1
  let b ← loaduL ctr 0
  let e ← encLogL C sched s.2.2 b
  let ciphertext ← storeAtL s.2.1 (n * 16) e.1
  let ciphertext ← xorIntoL ciphertext plaintext (n * 16) (min (plaintext.length - n * 16) 16)
  emit (.addr plaintext.length)
  return (ctr, vecResize ciphertext plaintext.length, e.2)

/-- `GCM::Encrypt` : include/caligo/gcm.h:115-157 -/
def gcmEncryptL {S : Type} (C : CipherL S) (g : Gcm S) (plaintext aad : List Byte) : Leak ((List Byte × List Byte) × Gcm S) := do
  emit (.branch (g.iv.length < 12))
  if g.iv.length < 12 then return (([], List.replicate 16 0#8), g) else
  let ctr ← ctrStartL g.iv g.counter
  let b ← loaduL ctr 0
  let e ← encLogL C g.sched g.log b
  let blocks := (plaintext.length + 16 - 1) / 16
  let lastBlockPartial := plaintext.length != blocks * 16
  emit (.pick lastBlockPartial)
  let full := if lastBlockPartial then blocks - 1 else blocks
  let s ← loopL full (ctr, List.replicate (blocks * 16) 0#8, e.2) (gcmEncBlockL C g.sched plaintext)
  let s ← loopL (blocks - full) s (gcmEncLastL C g.sched plaintext full)
  let calcTag ← gcmTagL g.h (reflect e.1) s.2.1 aad
  return ((s.2.1, calcTag), { g with z := reflect e.1, counter := g.counter + 1#64, log := s.2.2 })

end Verif.Model
