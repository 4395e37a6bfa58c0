import Verif.Proof.Aes
import Mathlib.Data.BitVec
import Mathlib.Data.Fintype.EquivFin

/-! Properties C52, C53, C86: AES. -/

namespace Verif.Props
open Verif.Model Verif.Proof Verif.Spec.Aes

/-- Construct the schedule and encrypt one block given as 16 bytes. -/
def aesBlock128 (junk key block : List Byte) : Out (List Byte) := do
  let s ← aesSchedule128 junk key
  let r ← aesEncrypt 128 s (loadBytes block)
  return storeu r
/-- As `aesBlock128` for 256-bit keys. -/
def aesBlock256 (key block : List Byte) : Out (List Byte) := do
  let s ← aesSchedule256 key
  let r ← aesEncrypt 256 s (loadBytes block)
  return storeu r

theorem load_overwrite (junk key : List Byte) (hk : 16 ≤ key.length) : loadBytes (overwrite junk 0 key) = loadBytes key := by
  rw [← load_take, ← load_take key, overwrite, List.take_zero, List.nil_append, List.take_append_of_le_length hk]

/-- C52 for AES-128: every 16-byte key, every block, whatever the uninitialised round key array held. -/
theorem C52_aes128 (junk key block : List Byte) (hk : key.length = 16) :
    aesBlock128 junk key block = .ok (aes128 key block) := by
  obtain ⟨r, e, h⟩ := aesEncrypt_cipher 128 10 rfl (by decide) (aesChain128 (loadBytes key)) (keyExpansion 4 10 key) rfl
    (fun n hn => by rw [keyExpansion_128]; exact keyAt_words _ n (by show n < 11; omega)) block
  rw [aesBlock128, aesSchedule128, if_pos (by omega), load_overwrite _ _ (by omega)]
  rw [ok_bind, e]
  exact congrArg Except.ok h

/-- C52 for AES-256. -/
theorem C52_aes256 (key block : List Byte) (hk : key.length = 32) : aesBlock256 key block = .ok (aes256 key block) := by
  obtain ⟨r, e, h⟩ := aesEncrypt_cipher 256 14 rfl (by decide) (aesChain256 (loadBytes key) (loadBytes (key.drop 16))) (keyExpansion 8 14 key) rfl
    (fun n hn => by rw [keyExpansion_256]; exact keyAt_words _ n (by show n < 15; omega)) block
  rw [aesBlock256, aesSchedule256, loadu, loadu, if_pos (by omega), if_pos (by omega)]
  rw [ok_bind, ok_bind, List.drop_zero]
  show (Except.ok (aesChain256 (loadBytes key) (loadBytes (key.drop 16))) >>= _) = _
  rw [ok_bind, e]
  exact congrArg Except.ok h

/-- The S-box of the specification is built on the inverse. -/
theorem C52_inverse (b : Byte) (hb : b ≠ 0#8) : gmul b (gfInv b) = 1#8 := gfInv_spec b hb

/-- FIPS 197, appendix C.1 -/
example : aes128 (unhex "000102030405060708090a0b0c0d0e0f") (unhex "00112233445566778899aabbccddeeff") = unhex "69c4e0d86a7b0430d8cdb78070b4c55a" := by
  have h := C52_aes128 (List.replicate 176 0#8) (unhex "000102030405060708090a0b0c0d0e0f") (unhex "00112233445566778899aabbccddeeff") (by decide +kernel)
  have e : aesBlock128 (List.replicate 176 0#8) (unhex "000102030405060708090a0b0c0d0e0f") (unhex "00112233445566778899aabbccddeeff") =
    .ok (unhex "69c4e0d86a7b0430d8cdb78070b4c55a") := by decide +kernel
  exact Except.ok.inj (h.symm.trans e)

/-- FIPS 197, appendix C.3 -/
example : aes256 (unhex "000102030405060708090a0b0c0d0e0f101112131415161718191a1b1c1d1e1f") (unhex "00112233445566778899aabbccddeeff") =
    unhex "8ea2b7ca516745bfeafc49904b496089" := by
  have h := C52_aes256 (unhex "000102030405060708090a0b0c0d0e0f101112131415161718191a1b1c1d1e1f") (unhex "00112233445566778899aabbccddeeff") (by decide +kernel)
  have e : aesBlock256 (unhex "000102030405060708090a0b0c0d0e0f101112131415161718191a1b1c1d1e1f") (unhex "00112233445566778899aabbccddeeff") =
    .ok (unhex "8ea2b7ca516745bfeafc49904b496089") := by decide +kernel
  exact Except.ok.inj (h.symm.trans e)

/-! ### C53 -/

theorem perm_of_injective {E : M128 → M128} (h : Function.Injective E) : Function.Bijective E :=
  have : Finite M128 := Finite.of_equiv _ BitVec.equivFin.toEquiv.symm
  Finite.injective_iff_bijective.mp h

/-- C53 for AES-128: with a fixed schedule, encryption returns normally and is a bijection of the blocks. -/
theorem C53_aes128 (junk key : List Byte) (s : List M128) (h : aesSchedule128 junk key = .ok s) :
    ∃ E : M128 → M128, Function.Bijective E ∧ ∀ b, aesEncrypt 128 s b = .ok (E b) := by
  have hs : aesRounds 128 < s.length := by
    rw [aesSchedule128] at h
    split at h
    · rw [← Except.ok.inj h]; show 10 < 11; decide
    · exact absurd h (by simp)
  obtain ⟨E, hE, he⟩ := aesEncrypt_perm 128 s hs (by decide)
  exact ⟨E, perm_of_injective hE, he⟩

/-- C53 for AES-256. -/
theorem C53_aes256 (key : List Byte) (s : List M128) (h : aesSchedule256 key = .ok s) :
    ∃ E : M128 → M128, Function.Bijective E ∧ ∀ b, aesEncrypt 256 s b = .ok (E b) := by
  have hs : aesRounds 256 < s.length := by
    rw [aesSchedule256, loadu, loadu] at h
    split at h
    · split at h
      · rw [← Except.ok.inj h]; show 14 < 15; decide
      · exact absurd h (by simp [bind, Except.bind])
    · exact absurd h (by simp [bind, Except.bind])
  obtain ⟨E, hE, he⟩ := aesEncrypt_perm 256 s hs (by decide)
  exact ⟨E, perm_of_injective hE, he⟩

/-- the hypotheses hold for every key of the right size -/
example (key : List Byte) (hk : key.length = 32) : ∃ s, aesSchedule256 key = .ok s := by
  rw [aesSchedule256, loadu, loadu, if_pos (by omega), if_pos (by omega)]; exact ⟨_, rfl⟩
example (junk key : List Byte) (hk : key.length = 16) : ∃ s, aesSchedule128 junk key = .ok s := by
  rw [aesSchedule128, if_pos (by omega)]; exact ⟨_, rfl⟩

/-! ### C86 -/

/-- C86 in full: a key of the wrong size is refused by an exception, whatever the memory of the schedule held. -/
def C86_claim : Prop := (∀ junk key : List Byte, junk.length = 176 → key.length ≠ 16 → aesSchedule128 junk key = .error .thrown) ∧
  (∀ key : List Byte, key.length ≠ 32 → aesSchedule256 key = .error .thrown)

/-- C86 fails: a short key is completed from uninitialised memory, or memory behind the key is read. -/
theorem C86_false : ¬ C86_claim := fun h => by
  have := h.2 [] (by decide)
  exact absurd this (by decide)

/-- What happens instead. AES-128: up to 16 bytes of key completed by what the memory held; 17 to 176 bytes: the first 16 bytes; more: undefined
behaviour. AES-256: fewer than 32 bytes: undefined behaviour; more: the first 32 bytes. Missing: any refusal. -/
theorem C86_partial (junk key : List Byte) (hj : junk.length = 176) :
    (key.length ≤ 16 → aesSchedule128 junk key = aesSchedule128 junk (key ++ (junk.drop key.length).take (16 - key.length))) ∧
    (16 < key.length → key.length ≤ 176 → aesSchedule128 junk key = aesSchedule128 junk (key.take 16)) ∧
    (176 < key.length → aesSchedule128 junk key = .error .ub) ∧
    (key.length < 32 → aesSchedule256 key = .error .ub) ∧
    (32 ≤ key.length → aesSchedule256 key = aesSchedule256 (key.take 32)) := by
  refine ⟨fun h => ?_, fun h h2 => ?_, fun h => ?_, fun h => ?_, fun h => ?_⟩
  · have hl : (key ++ (junk.drop key.length).take (16 - key.length)).length = 16 := by simp; omega
    rw [aesSchedule128, aesSchedule128, if_pos (by omega), if_pos (by omega), load_overwrite _ (key ++ _) (by omega), ← load_take (overwrite _ _ _)]
    have : (overwrite junk 0 key).take 16 = key ++ (junk.drop key.length).take (16 - key.length) := by
      rw [overwrite, List.take_zero, List.nil_append, Nat.zero_add, List.take_append, List.take_of_length_le h]
    rw [this]
  · rw [aesSchedule128, aesSchedule128, if_pos h2, if_pos (by simp), load_overwrite _ key (by omega), load_overwrite _ _ (by simp; omega), load_take]
  · rw [aesSchedule128, if_neg (by omega)]
  · rw [aesSchedule256, loadu, loadu]
    split
    · rw [if_neg (by omega)]; rfl
    · rfl
  · rw [aesSchedule256, aesSchedule256, loadu, loadu, loadu, loadu, if_pos (by omega), if_pos (by omega), if_pos (by simp; omega), if_pos (by simp; omega)]
    have e1 : loadBytes ((key.take 32).drop 0) = loadBytes (key.drop 0) := by
      rw [List.drop_zero, List.drop_zero, ← load_take, ← load_take key, List.take_take]; rfl
    have e2 : loadBytes ((key.take 32).drop 16) = loadBytes (key.drop 16) := by
      rw [List.drop_take, load_take]
    rw [e1, e2]

example : (List.replicate 176 0#8).length = 176 ∧ ([1, 2, 3] : List Byte).length ≤ 16 := by decide +kernel

end Verif.Props
