import Verif.Props.Collision

/-! C154: which keys give the same HMAC. -/

namespace Verif.Props
open Verif.Model Verif.Spec Verif.Proof

/-- C154, full claim: different keys are told apart by some message. -/
def C154_claim : Prop := ∀ (c : HashClass) (key key' : List Byte), c ≠ .crc32 → key ≠ key' → ∃ text, Model.hmac c text key ≠ Model.hmac c text key'

/-- The keys agree in the bytes that HMAC looks at, where a missing byte counts as zero. -/
def SameStart (c : HashClass) (key key' : List Byte) : Prop := ∀ i < 2 * digestLength c, key.getD i 0#8 = key'.getD i 0#8

theorem resizeTo_getD (key : List Byte) (n i : Nat) (hi : i < n) : (resizeTo key n).getD i 0#8 = key.getD i 0#8 := by
  unfold resizeTo
  simp only [List.getD_eq_getElem?_getD]
  by_cases h : i < key.length
  · rw [List.getElem?_append_left (by rw [List.length_take]; omega), List.getElem?_take_of_lt hi]
  · rw [List.getElem?_append_right (by rw [List.length_take]; omega), List.getElem?_replicate, List.getElem?_eq_none (by omega : key.length ≤ i), List.length_take]
    split <;> rfl

theorem resizeTo_length' (key : List Byte) (n : Nat) : (resizeTo key n).length = n := by
  unfold resizeTo
  rw [List.length_append, List.length_take, List.length_replicate]; omega

theorem resizeTo_iff (key key' : List Byte) (n : Nat) : resizeTo key n = resizeTo key' n ↔ ∀ i < n, key.getD i 0#8 = key'.getD i 0#8 := by
  constructor
  · intro h i hi
    rw [← resizeTo_getD key n i hi, h, resizeTo_getD key' n i hi]
  · intro h
    apply List.ext_getElem (by rw [resizeTo_length', resizeTo_length'])
    intro i h1 h2
    have := h i (by rwa [resizeTo_length'] at h1)
    rw [← resizeTo_getD key n i (by rwa [resizeTo_length'] at h1), ← resizeTo_getD key' n i (by rwa [resizeTo_length'] at h1)] at this
    rwa [List.getD_eq_getElem _ _ h1, List.getD_eq_getElem _ _ h2] at this

/-- C154: keys that agree in the first `2 * hashsize` bytes, up to missing bytes that count as zero, have the same MAC for every message. -/
theorem C154_same_partial (c : HashClass) (key key' : List Byte) (h : SameStart c key key') (text : List Byte) : Model.hmac c text key = Model.hmac c text key' := by
  rw [SameStart, ← hashsize_eq, Nat.mul_comm] at h
  unfold Model.hmac
  rw [(resizeTo_iff key key' _).mpr h]

/-- C154: other pairs of keys have different MACs for every message of the library's sizes, or the hash has a collision between two strings that are given. -/
theorem C154_partial (c : HashClass) (key key' text : List Byte) (ht : text.length < 2 ^ 60) (h : Model.hmac c text key = Model.hmac c text key') :
    SameStart c key key' ∨
    Collides c (padded c 0x36#8 key ++ text) (padded c 0x36#8 key' ++ text) ∨
    Collides c (padded c 0x5C#8 key ++ digest c (padded c 0x36#8 key ++ text)) (padded c 0x5C#8 key' ++ digest c (padded c 0x36#8 key' ++ text)) := by
  rcases C118_hmac c text key text key' ht ht h with ⟨_, h1⟩ | h1 | h1
  · left
    have e : ∀ k : List Byte, padded c 0#8 k = resizeTo k (2 * digestLength c) := by
      intro k
      rw [padded, resizeTo]
      simp
    rw [e, e] at h1
    exact (resizeTo_iff key key' _).mp h1
  · exact .inr (.inl h1)
  · exact .inr (.inr h1)

/-- The claim fails: a zero byte at the end of a key makes no difference. -/
theorem C154_false : ¬ C154_claim := by
  intro h
  obtain ⟨text, ht⟩ := h .sha2_256 [0x6b#8] [0x6b#8, 0#8] (by decide) (by decide)
  exact ht (C154_same_partial _ _ _ (by unfold SameStart; decide) text)

/-- Nor do the bytes after the first 64, for SHA-256. -/
example : SameStart .sha2_256 (List.replicate 64 7#8 ++ [1#8]) (List.replicate 64 7#8 ++ [2#8, 3#8]) ∧ ¬ SameStart .sha2_256 [1#8] [2#8] := by
  unfold SameStart; decide +kernel

/-- The hypotheses of `C154_partial` are met by a key and the same key with a zero byte. -/
example := C154_partial .sha2_256 [0x6b#8] [0x6b#8, 0#8] [1#8] (by decide) (C154_same_partial _ _ _ (by unfold SameStart; decide) _)

end Verif.Props
