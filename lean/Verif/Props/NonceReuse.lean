import Verif.Props.GcmCommit

/-! C116: what two messages under the same key, IV and message number reveal. -/

namespace Verif.Props

open Verif.Model Verif.Spec Verif.Spec.Gcm Verif.Proof

theorem tag_block (E : M128 → M128) (j c a : List Byte) :
    gctr (ciph E) j (unblock (ghash (subkey (ciph E)) (pad16 a ++ pad16 c ++ be64 (8 * a.length) ++ be64 (8 * c.length)))) =
      unblock (ghash (subkey (ciph E)) (encoding a c) ^^^ block (ciph E j)) := by
  rw [← unblock_xor _ _ (ciph_length E j), ← gctr_block _ _ _ (unblock_len _)]
  rfl

theorem xor_shift (x y z : BitVec 128) : (x ^^^ z) ^^^ (x ^^^ y) = y ^^^ z := by
  rw [BitVec.xor_comm x z, BitVec.xor_assoc, ← BitVec.xor_assoc x x y, BitVec.xor_self, BitVec.zero_xor, BitVec.xor_comm]

theorem xor_mask (x y z : BitVec 128) : (x ^^^ z) ^^^ (y ^^^ z) = x ^^^ y := by
  rw [BitVec.xor_assoc, BitVec.xor_comm y z, ← BitVec.xor_assoc z z y, BitVec.xor_self, BitVec.zero_xor]

/-- C116: two objects made from the same key and IV that have processed equally many messages (modulo 2^64). The exclusive or of the two ciphertexts is that
of the plaintexts, as far as the shorter one goes. -/
theorem C116_plaintexts {S S' : Type} (C : Cipher S) (C' : Cipher S') (key : List Byte) (E : M128 → M128) (hC : IsCipher C key E) (hC' : IsCipher C' key E)
    (z0 z0' : M128) (iv : List Byte) (hs : iv.length = 8 ∨ 12 ≤ iv.length) (ops ops' : List GcmOp) (hn : ops.length % 2 ^ 64 = ops'.length % 2 ^ 64)
    (p a p' a' : List Byte) :
    ∃ g g' c t g1 c' t' g1', gcmAfter C z0 key iv ops = .ok g ∧ gcmAfter C' z0' key iv ops' = .ok g' ∧
      gcmEncrypt C g p a = .ok ((c, t), g1) ∧ gcmEncrypt C' g' p' a' = .ok ((c', t'), g1') ∧ xorBytes c c' = xorBytes p p' := by
  obtain ⟨g, e, h, _⟩ := gcmAfter_at hC z0 hs ops
  obtain ⟨g', e', h', _⟩ := gcmAfter_at hC' z0' hs ops'
  refine ⟨g, g', _, _, _, _, _, _, e, e', h.encrypt hs p a, h'.encrypt hs p' a', ?_⟩
  rw [← hn]
  show xorBytes (gctr (ciph E) _ p) (gctr (ciph E) _ p') = _
  refine list_ext_getD 0#8 (by simp [xorBytes_length, gctr_length]) (fun i hi => ?_)
  have hi : i < p.length ∧ i < p'.length := by simpa [xorBytes_length, gctr_length] using hi
  rw [xorBytes_getD _ _ _ (by rw [gctr_length]; exact hi.1) (by rw [gctr_length]; exact hi.2), gctr_getD _ _ _ _ hi.1, gctr_getD _ _ _ _ hi.2,
    xorBytes_getD _ _ _ hi.1 hi.2, BitVec.xor_assoc, BitVec.xor_comm (p'.getD i 0#8), ← BitVec.xor_assoc (ksByte _ _ _), BitVec.xor_self, BitVec.zero_xor]

/-- C116: of the two messages and their tags the hash subkey is one of few solutions of a polynomial equation whose coefficients are public. -/
theorem C116_subkey {S S' : Type} (C : Cipher S) (C' : Cipher S') (key : List Byte) (E : M128 → M128) (hC : IsCipher C key E) (hC' : IsCipher C' key E)
    (z0 z0' : M128) (iv : List Byte) (hs : iv.length = 8 ∨ 12 ≤ iv.length) (ops ops' : List GcmOp) (hn : ops.length % 2 ^ 64 = ops'.length % 2 ^ 64)
    (p a p' a' : List Byte) (hp : p.length < 2 ^ 61) (ha : a.length < 2 ^ 61) (hp' : p'.length < 2 ^ 61) (ha' : a'.length < 2 ^ 61) :
    ∃ g g' c t g1 c' t' g1', gcmAfter C z0 key iv ops = .ok g ∧ gcmAfter C' z0' key iv ops' = .ok g' ∧
      gcmEncrypt C g p a = .ok ((c, t), g1) ∧ gcmEncrypt C' g' p' a' = .ok ((c', t'), g1') ∧
      ghash (subkey (ciph E)) (encoding a c) ^^^ ghash (subkey (ciph E)) (encoding a' c') = block t ^^^ block t' ∧
      ((p, a) ≠ (p', a') → ∀ T : Finset (BitVec 128), (∀ h ∈ T, ghash h (encoding a c) ^^^ ghash h (encoding a' c') = block t ^^^ block t') →
        T.card ≤ max ((a.length + 15) / 16 + (p.length + 15) / 16) ((a'.length + 15) / 16 + (p'.length + 15) / 16) + 1) := by
  obtain ⟨g, e, h, _⟩ := gcmAfter_at hC z0 hs ops
  obtain ⟨g', e', h', _⟩ := gcmAfter_at hC' z0' hs ops'
  refine ⟨g, g', _, _, _, _, _, _, e, e', h.encrypt hs p a, h'.encrypt hs p' a', ?_, ?_⟩
  · rw [← hn, tag_block, tag_block, block_unblock, block_unblock, xor_mask]
  · intro hne T hT
    have hlen : ∀ (j p a : List Byte), (aeJ (ciph E) j p a).1.length = p.length := fun j p a => gctr_length _ _ _
    rw [← hn] at hT
    obtain ⟨i, hi⟩ := encoding_differs a (aeJ (ciph E) (jOf E iv (ops.length % 2 ^ 64)) p a).1 a' (aeJ (ciph E) (jOf E iv (ops.length % 2 ^ 64)) p' a').1
      ha (by rw [hlen]; exact hp) ha' (by rw [hlen]; exact hp') (by
        intro h0
        apply hne
        have h1 : a = a' := congrArg Prod.fst h0
        have h2 : gctr (ciph E) (inc32 (jOf E iv (ops.length % 2 ^ 64))) p = gctr (ciph E) (inc32 (jOf E iv (ops.length % 2 ^ 64))) p' := congrArg Prod.snd h0
        have h3 := congrArg (gctr (ciph E) (inc32 (jOf E iv (ops.length % 2 ^ 64)))) h2
        rw [gctr_gctr, gctr_gctr] at h3
        rw [h1, h3])
    refine (ghash_difference _ _ _ T i hi (fun h hh => hT h hh)).trans ?_
    have el : ∀ a c, (blocksOf ((encoding a c).length / 16) (encoding a c)).length = (a.length + 15) / 16 + (c.length + 15) / 16 + 1 := by
      intro a c
      have := encoding_length a c
      rw [blockCount, blockCount] at this
      simp only [blocksOf, List.length_map, List.length_range]
      omega
    rw [el, el, hlen, hlen]
    omega

/-- A case that meets the hypotheses of `C116_subkey`. -/
example : ∃ E, IsCipher aesCipher256 (List.replicate 32 3#8) E ∧ ((List.replicate 12 1#8 : List Byte).length = 8 ∨ 12 ≤ (List.replicate 12 1#8 : List Byte).length) ∧
    ([] : List GcmOp).length % 2 ^ 64 = ([] : List GcmOp).length % 2 ^ 64 ∧ (([1#8], []) : List Byte × List Byte) ≠ ([2#8], [3#8]) :=
  let ⟨E, h, _⟩ := aes256_isCipher (List.replicate 32 3#8) rfl
  ⟨E, h, by decide, rfl, by decide⟩

/-- C116: who knows the hash subkey and one message under a nonce can make the tag of every other ciphertext and additional data under that nonce; it is the
only tag that is accepted. -/
theorem C116_forge {S S' : Type} (C : Cipher S) (C' : Cipher S') (key : List Byte) (E : M128 → M128) (hC : IsCipher C key E) (hC' : IsCipher C' key E)
    (z0 z0' : M128) (iv : List Byte) (hs : iv.length = 8 ∨ 12 ≤ iv.length) (ops ops' : List GcmOp) (hn : ops.length % 2 ^ 64 = ops'.length % 2 ^ 64)
    (p a c' a' t' : List Byte) :
    ∃ g g' c t g1 p' v g1', gcmAfter C z0 key iv ops = .ok g ∧ gcmAfter C' z0' key iv ops' = .ok g' ∧
      gcmEncrypt C g p a = .ok ((c, t), g1) ∧ gcmDecrypt C' g' c' a' t' = .ok ((p', v), g1') ∧
      (v = true ↔ t' = unblock (block t ^^^ (ghash (subkey (ciph E)) (encoding a c) ^^^ ghash (subkey (ciph E)) (encoding a' c')))) := by
  obtain ⟨g, e, h, _⟩ := gcmAfter_at hC z0 hs ops
  obtain ⟨g', e', h', _⟩ := gcmAfter_at hC' z0' hs ops'
  refine ⟨g, g', _, _, _, _, _, _, e, e', h.encrypt hs p a, h'.decrypt hs c' a' t', ?_⟩
  rw [decide_eq_true_eq, ← hn, tag_block, tag_block, block_unblock, xor_shift]
  exact eq_comm

/-- The hypotheses of C116 are met: two AES-128 objects, one after an encryption and one after a decryption, and two messages. -/
example : (∃ E, IsCipher (aesCipher128 (List.replicate 176 0#8)) (List.replicate 16 3#8) E) ∧
    [GcmOp.enc [1#8] []].length % 2 ^ 64 = [GcmOp.dec [5#8] [] (List.replicate 16 0#8)].length % 2 ^ 64 ∧ (([1#8], []) : List Byte × List Byte) ≠ ([2#8], []) := by
  obtain ⟨E, hC, _⟩ := aes128_isCipher (List.replicate 176 0#8) (List.replicate 16 3#8) rfl
  exact ⟨⟨E, hC⟩, rfl, by decide⟩

end Verif.Props
