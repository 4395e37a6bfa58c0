import Verif.Proof.GhashUniversal

/-! C88: the multiplication of GCM is that of a field. C89: GHASH as implemented is almost universal, so that a forgery succeeds for few hash
subkeys only. -/

namespace Verif.Props

open Verif.Model Verif.Spec Verif.Spec.Gcm Verif.Proof

/-! ### C88 -/

/-- C88: registers of 128 bits with exclusive or and `galoisMultiply` satisfy the laws of a field. -/
theorem C88_field :
    (∀ a b, galoisMultiply a b = galoisMultiply b a) ∧
    (∀ a b c, galoisMultiply (galoisMultiply a b) c = galoisMultiply a (galoisMultiply b c)) ∧
    (∀ a b c, galoisMultiply a (b ^^^ c) = galoisMultiply a b ^^^ galoisMultiply a c) ∧
    (∀ a, galoisMultiply a 1#128 = a) ∧
    (∀ a b, galoisMultiply a b = 0#128 → a = 0#128 ∨ b = 0#128) ∧
    (∀ a, a ≠ 0#128 → ∃ b, galoisMultiply a b = 1#128) := by
  have e : ∀ a b, el (galoisMultiply a b) = el a * el b := fun a b => by rw [galoisMultiply_pmul, el_pmul]
  have hnz : ∀ a b, galoisMultiply a b = 0#128 → a = 0#128 ∨ b = 0#128 := by
    intro a b h
    have h1 := e a b
    rw [h, el_zero] at h1
    rcases mul_eq_zero.mp h1.symm with h2 | h2
    · exact Or.inl (el_inj (h2.trans el_zero.symm))
    · exact Or.inr (el_inj (h2.trans el_zero.symm))
  have hx : ∀ a b c, galoisMultiply a (b ^^^ c) = galoisMultiply a b ^^^ galoisMultiply a c :=
    fun a b c => el_inj (by rw [e, el_xor, el_xor, e, e, mul_add])
  refine ⟨fun a b => el_inj (by rw [e, e, mul_comm]), fun a b c => el_inj (by rw [e, e, e, e, mul_assoc]), hx,
    fun a => el_inj (by rw [e, show (1#128) = BitVec.twoPow 128 0 by decide, el_twoPow 0 (by decide), pow_zero, mul_one]), hnz, ?_⟩
  intro a ha
  haveI : Finite (BitVec 128) := Finite.of_injective BitVec.toFin (fun _ _ h => BitVec.eq_of_toFin_eq h)
  have hinj : Function.Injective (galoisMultiply a) := by
    intro b c h
    have h1 := hx a b c
    rw [h, BitVec.xor_self] at h1
    rcases hnz _ _ h1 with h2 | h2
    · exact absurd h2 ha
    · exact BitVec.xor_eq_zero_iff.mp h2
  exact (Finite.injective_iff_surjective.mp hinj) 1#128

/-- C88 in the order of the standard: `mul` of SP 800-38D has no divisors of zero and every other block has an inverse. -/
theorem C88_standard : (∀ x y, mul x y = 0#128 → x = 0#128 ∨ y = 0#128) ∧
    (∀ x, x ≠ 0#128 → ∃ y, mul x y = BitVec.ofNat 128 (2 ^ 127)) := by
  have h0 : (0#128).reverse = 0#128 := by decide +kernel
  have hz : ∀ x : BitVec 128, x.reverse = 0#128 → x = 0#128 := by
    intro x h
    have := congrArg BitVec.reverse h
    rwa [BitVec.reverse_reverse_eq, h0] at this
  constructor
  · intro x y h
    have h1 := galoisMultiply_spec x y
    rw [h, h0] at h1
    rcases C88_field.2.2.2.2.1 _ _ h1 with h2 | h2
    · exact Or.inl (hz x h2)
    · exact Or.inr (hz y h2)
  · intro x hx
    obtain ⟨b, hb⟩ := C88_field.2.2.2.2.2 x.reverse (fun h => hx (hz x h))
    refine ⟨b.reverse, ?_⟩
    have h1 := galoisMultiply_spec x b.reverse
    rw [BitVec.reverse_reverse_eq, hb] at h1
    have h2 := congrArg BitVec.reverse h1
    rw [BitVec.reverse_reverse_eq] at h2
    rw [← h2]
    decide +kernel

/-- A non-trivial product. -/
example : galoisMultiply (BitVec.ofNat 128 (2 ^ 127)) 2#128 = 0x87#128 := by decide +kernel

/-! ### C89 -/

/-- What a tag says about GHASH. -/
theorem tag_iff (h z : M128) (c a t : List Byte) (ht : gcmTag h z c a = .ok t) :
    ghash h.reverse (encoding a c) = block (xorBytes t (storeu (reflect z))) := by
  have h1 := gcmTag_spec h.reverse (fun _ => reflect z) [] c a
  rw [BitVec.reverse_reverse_eq, reflect_reflect, ht, gctr_block _ _ _ (unblock_len _)] at h1
  have h2 : ciph (fun _ => reflect z) [] = storeu (reflect z) := rfl
  rw [h2] at h1
  have h3 : t = _ := Except.ok.inj h1
  have h4 : xorBytes t (storeu (reflect z)) = unblock (ghash h.reverse (encoding a c)) := by
    rw [h3]
    refine list_ext_getD 0#8 (by simp [xorBytes_length, storeu_length, unblock_len]) (fun i hi => ?_)
    have hi : i < 16 := by simpa [xorBytes_length, storeu_length, unblock_len] using hi
    rw [xorBytes_getD _ _ _ (by simp [xorBytes_length, storeu_length, unblock_len, hi]) (by rw [storeu_length]; exact hi),
      xorBytes_getD _ _ _ (by rw [unblock_len]; exact hi) (by rw [storeu_length]; exact hi), BitVec.xor_assoc, BitVec.xor_self, BitVec.xor_zero]
    rfl
  rw [h4, block_unblock]

/-- C89: for two different messages (ciphertext and additional data), any two masks and any two tags there are at most as many hash subkeys
that give both tags as the longer message has blocks, plus one. The masks are what `calculate_tag` adds; for a good cipher they are unrelated to the
subkey. -/
theorem C89_forgery (c a c' a' : List Byte) (hc : c.length < 2 ^ 61) (ha : a.length < 2 ^ 61) (hc' : c'.length < 2 ^ 61) (ha' : a'.length < 2 ^ 61)
    (hne : (a, c) ≠ (a', c')) (z z' : M128) (t t' : List Byte) (S : Finset M128)
    (hS : ∀ h ∈ S, gcmTag h z c a = .ok t ∧ gcmTag h z' c' a' = .ok t') :
    S.card ≤ max ((a.length + 15) / 16 + (c.length + 15) / 16) ((a'.length + 15) / 16 + (c'.length + 15) / 16) + 1 := by
  classical
  obtain ⟨i, hi⟩ := encoding_differs a c a' c' ha hc ha' hc' hne
  have hinj : Function.Injective (BitVec.reverse (w := 128)) := by
    intro x y h
    have := congrArg BitVec.reverse h
    rwa [BitVec.reverse_reverse_eq, BitVec.reverse_reverse_eq] at this
  rw [← Finset.card_image_of_injective S hinj]
  refine (ghash_difference _ _ (block (xorBytes t (storeu (reflect z))) ^^^ block (xorBytes t' (storeu (reflect z')))) _ i hi ?_).trans ?_
  · intro h hh
    obtain ⟨k, hk, rfl⟩ := Finset.mem_image.mp hh
    rw [← tag_iff k z c a t (hS k hk).1, ← tag_iff k z' c' a' t' (hS k hk).2]
    rfl
  · have e : ∀ a c, (blocksOf ((encoding a c).length / 16) (encoding a c)).length = (a.length + 15) / 16 + (c.length + 15) / 16 + 1 := by
      intro a c
      have := encoding_length a c
      rw [blockCount, blockCount] at this
      simp only [blocksOf, List.length_map, List.length_range]
      omega
    rw [e, e]
    omega

/-- Both tags are reached: the subkey 0 for two one-byte messages. -/
example : gcmTag 0#128 0#128 [1#8] [] = .ok (List.replicate 16 0#8) ∧ gcmTag 0#128 5#128 [2#8] [] = .ok (storeu (reflect 5#128)) := by
  decide +kernel

theorem mul_zero128 (x : BitVec 128) : mul x 0#128 = 0#128 := elem_inj (by rw [elem_mul, elem_zero, mul_zero])
theorem mul_one128 (x : BitVec 128) : mul x gOne = x := elem_inj (by rw [elem_mul, elem_one, mul_one])

/-- The tag without mask. -/
theorem tag_zero (h : BitVec 128) (c a : List Byte) : gcmTag h.reverse 0#128 c a = .ok (unblock (ghash h (encoding a c))) := by
  have h1 := gcmTag_spec h (fun _ => 0#128) [] c a
  have h0 : reflect 0#128 = 0#128 := by decide +kernel
  rw [h0, gctr_block _ _ _ (unblock_len _)] at h1
  have h2 : ciph (fun _ => 0#128) [] = List.replicate 16 0#8 := by decide +kernel
  rw [h2] at h1
  rw [h1]
  congr 1
  refine list_ext_getD 0#8 (by simp [xorBytes_length, unblock_len]) (fun i hi => ?_)
  have hi : i < 16 := by simpa [xorBytes_length, unblock_len] using hi
  rw [xorBytes_getD _ _ _ (by rw [unblock_len]; exact hi) (by simpa using hi), List.getD_replicate _ hi, BitVec.xor_zero]
  rfl

/-- The bound of C89 is attained: two subkeys give these two messages of at most one block the same tags. -/
theorem C89_sharp : ∀ h ∈ ({0#128, 1#128} : Finset M128), gcmTag h 0#128 (List.replicate 15 0#8 ++ [128#8]) [] = .ok (List.replicate 16 0#8) ∧
    gcmTag h 0#128 [] [] = .ok (List.replicate 16 0#8) := by
  have hu : unblock 0#128 = List.replicate 16 0#8 := by decide +kernel
  have hb1 : blocksOf ((encoding [] (List.replicate 15 0#8 ++ [128#8])).length / 16) (encoding [] (List.replicate 15 0#8 ++ [128#8])) =
    [128#128, 128#128] := by decide +kernel
  have hb0 : blocksOf ((encoding [] []).length / 16) (encoding [] []) = [0#128] := by decide +kernel
  have hr0 : (0#128).reverse = 0#128 := by decide +kernel
  have hr1 : gOne.reverse = 1#128 := by decide +kernel
  intro h hh
  rcases Finset.mem_insert.mp hh with rfl | hh
  · have e := fun c a => tag_zero 0#128 c a
    rw [hr0] at e
    rw [e, e, ghash, ghash, hb1, hb0]
    simp only [List.foldl_cons, List.foldl_nil, mul_zero128, hu, and_self]
  · rw [Finset.mem_singleton.mp hh]
    rw [← hr1, tag_zero, tag_zero, ghash, ghash, hb1, hb0]
    simp only [List.foldl_cons, List.foldl_nil, mul_one128, BitVec.zero_xor, BitVec.xor_self, hu, and_self]

end Verif.Props
