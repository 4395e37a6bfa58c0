import Verif.Props.Aes
import Mathlib.Data.Finite.Prod

/-! C142: what round keys tell about the AES key. -/

namespace Verif.Props
open Verif.Model Verif.Proof Verif.Spec.Aes

theorem le32_inj {a b : U32} (h : le32 a = le32 b) : a = b := by
  simp only [le32, List.cons.injEq, and_true] at h
  obtain ⟨h0, h1, h2, h3⟩ := h
  apply BitVec.eq_of_getLsbD_eq
  intro i hi
  have key : ∀ q, a.extractLsb' (8 * q) 8 = b.extractLsb' (8 * q) 8 → i / 8 = q → a.getLsbD i = b.getLsbD i := by
    intro q hq hiq
    have := congrArg (fun w => w.getLsbD (i % 8)) hq
    simp only [BitVec.getLsbD_extractLsb', show i % 8 < 8 by omega, decide_true, Bool.true_and, show 8 * q + i % 8 = i by omega] at this
    exact this
  rcases (by omega : i / 8 = 0 ∨ i / 8 = 1 ∨ i / 8 = 2 ∨ i / 8 = 3) with e | e | e | e
  · exact key 0 h0 e
  · exact key 1 h1 e
  · exact key 2 h2 e
  · exact key 3 h3 e

theorem xor_cancel {a b c : U32} (h : a ^^^ c = b ^^^ c) : a = b := by
  have := congrArg (· ^^^ c) h
  simpa [BitVec.xor_assoc] using this

/-- Four words and their prefix sums. -/
theorem words_inj {k k' : M128} (g g' : U32) (h : [le32 (dwordOf k 0 ^^^ g), le32 (dwordOf k 1 ^^^ (dwordOf k 0 ^^^ g)), le32 (dwordOf k 2 ^^^ (dwordOf k 1 ^^^ (dwordOf k 0 ^^^ g))),
      le32 (dwordOf k 3 ^^^ (dwordOf k 2 ^^^ (dwordOf k 1 ^^^ (dwordOf k 0 ^^^ g))))] =
    [le32 (dwordOf k' 0 ^^^ g'), le32 (dwordOf k' 1 ^^^ (dwordOf k' 0 ^^^ g')), le32 (dwordOf k' 2 ^^^ (dwordOf k' 1 ^^^ (dwordOf k' 0 ^^^ g'))),
      le32 (dwordOf k' 3 ^^^ (dwordOf k' 2 ^^^ (dwordOf k' 1 ^^^ (dwordOf k' 0 ^^^ g'))))]) (hg : dwordOf k 3 = dwordOf k' 3 → g = g') : k = k' := by
  simp only [List.cons.injEq, and_true] at h
  obtain ⟨h0, h1, h2, h3⟩ := h
  have e0 := le32_inj h0
  have e1 := le32_inj h1
  have e2 := le32_inj h2
  have e3 := le32_inj h3
  rw [e2] at e3
  rw [e1] at e2
  rw [e0] at e1
  have d3 := xor_cancel e3
  rw [hg d3] at e0
  have d2 := xor_cancel e2
  have d1 := xor_cancel e1
  have d0 := xor_cancel e0
  apply m128_ext_dword
  intro i hi
  rcases (by omega : i = 0 ∨ i = 1 ∨ i = 2 ∨ i = 3) with rfl | rfl | rfl | rfl <;> assumption

theorem nextRoundKey_inj (m : Nat) : Function.Injective (nextRoundKey m) := by
  intro k k' h
  have := congrArg wordsOf h
  rw [nextRoundKey_words m k _ rfl, nextRoundKey_words m k' _ rfl] at this
  exact words_inj _ _ this (fun e => by rw [e])

theorem stepA_inj (b : M128) (rc : Byte) : Function.Injective (aesStepA · b rc) := by
  intro k k' h
  have := congrArg wordsOf h
  simp only [stepA_words] at this
  exact words_inj _ _ this (fun _ => rfl)

theorem stepB_inj (a : M128) : Function.Injective (aesStepB a) := by
  intro k k' h
  have := congrArg wordsOf h
  simp only [stepB_words] at this
  exact words_inj _ _ this (fun _ => rfl)

/-- One round key of AES-128 determines the first. -/
theorem chain128_inj (n : Nat) (hn : n < 11) : Function.Injective (fun k => (aesChain128 k).getD n 0#128) := by
  have hs := fun m => nextRoundKey_inj m
  interval_cases n
  · exact fun _ _ h => h
  · exact hs 0
  · exact (hs 1).comp (hs 0)
  · exact (hs 2).comp <| (hs 1).comp (hs 0)
  · exact (hs 3).comp <| (hs 2).comp <| (hs 1).comp (hs 0)
  · exact (hs 4).comp <| (hs 3).comp <| (hs 2).comp <| (hs 1).comp (hs 0)
  · exact (hs 5).comp <| (hs 4).comp <| (hs 3).comp <| (hs 2).comp <| (hs 1).comp (hs 0)
  · exact (hs 6).comp <| (hs 5).comp <| (hs 4).comp <| (hs 3).comp <| (hs 2).comp <| (hs 1).comp (hs 0)
  · exact (hs 7).comp <| (hs 6).comp <| (hs 5).comp <| (hs 4).comp <| (hs 3).comp <| (hs 2).comp <| (hs 1).comp (hs 0)
  · exact (hs 8).comp <| (hs 7).comp <| (hs 6).comp <| (hs 5).comp <| (hs 4).comp <| (hs 3).comp <| (hs 2).comp <| (hs 1).comp (hs 0)
  · exact (hs 9).comp <| (hs 8).comp <| (hs 7).comp <| (hs 6).comp <| (hs 5).comp <| (hs 4).comp <| (hs 3).comp <| (hs 2).comp <| (hs 1).comp (hs 0)

/-- The pairs of neighbouring round keys of AES-256. -/
def pairA (rc : Byte) (p : M128 × M128) : M128 × M128 := (p.2, aesStepA p.1 p.2 rc)
def pairB (p : M128 × M128) : M128 × M128 := (p.2, aesStepB p.2 p.1)

theorem pairA_inj (rc : Byte) : Function.Injective (pairA rc) := by
  rintro ⟨a, b⟩ ⟨a', b'⟩ h
  obtain ⟨h1, h2⟩ := Prod.mk.inj h
  simp only at h1 h2
  subst h1
  rw [stepA_inj b rc h2]

theorem pairB_inj : Function.Injective pairB := by
  rintro ⟨a, b⟩ ⟨a', b'⟩ h
  obtain ⟨h1, h2⟩ := Prod.mk.inj h
  simp only at h1 h2
  subst h1
  rw [stepB_inj b h2]

theorem chain256_inj (n : Nat) (hn : n < 14) : Function.Injective (fun k : M128 × M128 => ((aesChain256 k.1 k.2).getD n 0#128, (aesChain256 k.1 k.2).getD (n + 1) 0#128)) := by
  have B := pairB_inj
  have i1 : Function.Injective (pairA 0x01#8) := pairA_inj _
  have i2 := B.comp i1
  have i3 := (pairA_inj 0x02#8).comp i2
  have i4 := B.comp i3
  have i5 := (pairA_inj 0x04#8).comp i4
  have i6 := B.comp i5
  have i7 := (pairA_inj 0x08#8).comp i6
  have i8 := B.comp i7
  have i9 := (pairA_inj 0x10#8).comp i8
  have i10 := B.comp i9
  have i11 := (pairA_inj 0x20#8).comp i10
  have i12 := B.comp i11
  have i13 := (pairA_inj 0x40#8).comp i12
  interval_cases n
  · exact fun _ _ h => h
  · exact i1
  · exact i2
  · exact i3
  · exact i4
  · exact i5
  · exact i6
  · exact i7
  · exact i8
  · exact i9
  · exact i10
  · exact i11
  · exact i12
  · exact i13

theorem load16_inj {l l' : List Byte} (h : l.length = 16) (h' : l'.length = 16) (e : loadBytes l = loadBytes l') : l = l' := by
  rw [← storeu_load h, e, storeu_load h']

theorem sched128 (junk key : List Byte) (hk : key.length = 16) : aesSchedule128 junk key = .ok (aesChain128 (loadBytes key)) := by
  rw [aesSchedule128, if_pos (by omega), load_overwrite _ _ (by omega)]

theorem sched256 (key : List Byte) (hk : key.length = 32) : aesSchedule256 key = .ok (aesChain256 (loadBytes key) (loadBytes (key.drop 16))) := by
  rw [aesSchedule256, loadu, loadu, if_pos (by omega), if_pos (by omega), List.drop_zero]
  rfl

/-- C142 for AES-128: one round key, whichever it is, determines the key; so all round keys of different keys differ. -/
theorem C142_aes128 (junk junk' key key' : List Byte) (hk : key.length = 16) (hk' : key'.length = 16) (s s' : List M128) (h : aesSchedule128 junk key = .ok s)
    (h' : aesSchedule128 junk' key' = .ok s') (n : Nat) (hn : n < 11) (he : s[n]? = s'[n]?) : key = key' := by
  rw [sched128 _ _ hk] at h
  rw [sched128 _ _ hk'] at h'
  apply load16_inj hk hk'
  apply chain128_inj n hn
  simp only [List.getD_eq_getElem?_getD]
  rw [Except.ok.inj h, Except.ok.inj h', he]

/-- C142 for AES-256: two neighbouring round keys determine the key. -/
theorem C142_aes256 (key key' : List Byte) (hk : key.length = 32) (hk' : key'.length = 32) (s s' : List M128) (h : aesSchedule256 key = .ok s)
    (h' : aesSchedule256 key' = .ok s') (n : Nat) (hn : n < 14) (he : s[n]? = s'[n]?) (he' : s[n + 1]? = s'[n + 1]?) : key = key' := by
  rw [sched256 _ hk] at h
  rw [sched256 _ hk'] at h'
  have hi := chain256_inj n hn (a₁ := (loadBytes key, loadBytes (key.drop 16))) (a₂ := (loadBytes key', loadBytes (key'.drop 16)))
    (by simp only [List.getD_eq_getElem?_getD]; rw [Except.ok.inj h, Except.ok.inj h', he, he'])
  obtain ⟨e1, e2⟩ := Prod.mk.inj hi
  have f1 : key.take 16 = key'.take 16 := load16_inj (by rw [List.length_take]; omega) (by rw [List.length_take]; omega) (by rw [load_take, load_take, e1])
  have f2 : key.drop 16 = key'.drop 16 := load16_inj (by rw [List.length_drop]; omega) (by rw [List.length_drop]; omega) e2
  rw [← List.take_append_drop 16 key, f1, f2, List.take_append_drop]

/-- C142 for AES-256: one round key alone never does: whatever two neighbouring blocks are wanted as round keys, there is a key that has them. -/
theorem C142_any256 (n : Nat) (hn : n < 14) (x y : M128) : ∃ key : List Byte, key.length = 32 ∧ ∃ s, aesSchedule256 key = .ok s ∧ s[n]? = some x ∧ s[n + 1]? = some y := by
  have : Finite M128 := Finite.of_equiv _ BitVec.equivFin.toEquiv.symm
  have : Finite (M128 × M128) := inferInstanceAs (Finite (Prod M128 M128))
  obtain ⟨⟨a, b⟩, hab⟩ := (Finite.injective_iff_surjective.mp (chain256_inj n hn)) (x, y)
  obtain ⟨e1, e2⟩ := Prod.mk.inj hab
  have la : (storeu a).length = 16 := storeu_length a
  have lb : (storeu b).length = 16 := storeu_length b
  refine ⟨storeu a ++ storeu b, by rw [List.length_append, la, lb], _, sched256 _ (by rw [List.length_append, la, lb]), ?_⟩
  rw [show (storeu a ++ storeu b).drop 16 = storeu b by rw [← la]; exact List.drop_left, ← load_take (storeu a ++ storeu b),
    show (storeu a ++ storeu b).take 16 = storeu a by rw [← la]; exact List.take_left, load_storeu, load_storeu]
  have hl : (aesChain256 a b).length = 15 := rfl
  simp only at e1 e2
  constructor
  · rw [List.getElem?_eq_getElem (by omega), ← e1, List.getD_eq_getElem _ _ (by omega)]
  · rw [List.getElem?_eq_getElem (by omega), ← e2, List.getD_eq_getElem _ _ (by omega)]

/-- A case that meets the hypotheses of `C142_any256`. -/
example := C142_any256 13 (by decide) 5#128 6#128

/-- C142 for AES-128: every block is the round key `n` of some key. -/
theorem C142_any128 (junk : List Byte) (n : Nat) (hn : n < 11) (x : M128) : ∃ key : List Byte, key.length = 16 ∧ ∃ s, aesSchedule128 junk key = .ok s ∧ s[n]? = some x := by
  have : Finite M128 := Finite.of_equiv _ BitVec.equivFin.toEquiv.symm
  obtain ⟨a, ha⟩ := (Finite.injective_iff_surjective.mp (chain128_inj n hn)) x
  refine ⟨storeu a, storeu_length a, _, sched128 _ _ (storeu_length a), ?_⟩
  have hl : (aesChain128 a).length = 11 := rfl
  rw [load_storeu, List.getElem?_eq_getElem (by omega), ← ha]
  exact congrArg some (List.getD_eq_getElem _ _ (by omega)).symm

/-- The hypotheses of `C142_aes128` and `C142_aes256` hold for concrete keys; with different keys the round keys differ. -/
example : ∃ s s', aesSchedule128 [] (List.replicate 16 1#8) = .ok s ∧ aesSchedule128 [] (List.replicate 16 2#8) = .ok s' ∧ s[10]? ≠ s'[10]? := by
  refine ⟨_, _, sched128 _ _ rfl, sched128 _ _ rfl, fun he => ?_⟩
  exact absurd (C142_aes128 [] [] _ _ rfl rfl _ _ (sched128 _ _ rfl) (sched128 _ _ rfl) 10 (by decide) he) (by decide)

end Verif.Props
