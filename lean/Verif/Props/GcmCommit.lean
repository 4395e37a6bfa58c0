import Verif.Props.GF128
import Verif.Props.Gcm

/-! C115: a ciphertext and tag of GCM do not determine the key. -/

namespace Verif.Props

open Verif.Model Verif.Spec Verif.Spec.Gcm Verif.Proof

/-- The claim: what one key accepts another key does not accept. -/
def C115_claim : Prop := ∀ (junk key key' iv c a t : List Byte) (z0 : M128) (g g' g1 g1' : Gcm (List M128)) (p p' : List Byte) (v : Bool),
  junk.length = 176 → key.length = 16 → key'.length = 16 → iv.length = 12 → t.length = 16 → key ≠ key' →
  gcmNew (aesCipher128 junk) z0 key iv = .ok g → gcmNew (aesCipher128 junk) z0 key' iv = .ok g' →
  gcmDecrypt (aesCipher128 junk) g c a t = .ok ((p, true), g1) → gcmDecrypt (aesCipher128 junk) g' c a t = .ok ((p', v), g1') → v = false

theorem unblock_xor (x : BitVec 128) (y : List Byte) (hy : y.length = 16) : xorBytes (unblock x) y = unblock (x ^^^ block y) := by
  have e : ∀ (x : BitVec 128) (i : Nat), i < 16 → (unblock x).getD i 0#8 = x.extractLsb' (8 * (15 - i)) 8 := by
    intro x i hi
    rw [unblock, List.getD_eq_getElem _ _ (by simpa using hi), List.getElem_map, List.getElem_range]
  refine list_ext_getD 0#8 (by simp [xorBytes_length, unblock_len, hy]) (fun i hi => ?_)
  have hi : i < 16 := by simpa [xorBytes_length, unblock_len, hy] using hi
  rw [xorBytes_getD _ _ _ (by rw [unblock_len]; exact hi) (by rw [hy]; exact hi)]
  have h1 : y.getD i 0#8 = (unblock (block y)).getD i 0#8 := by rw [unblock_block y hy]
  rw [h1, e _ _ hi, e _ _ hi, e _ _ hi]
  ext j hj
  simp [BitVec.getElem_xor, BitVec.getElem_extractLsb']

theorem unblock_inj {x y : BitVec 128} (h : unblock x = unblock y) : x = y := by
  rw [← block_unblock x, h, block_unblock]

theorem pad16_whole {l : List Byte} (h : l.length % 16 = 0) : pad16 l = l := by
  rw [pad16, h]; simp

/-- GHASH of additional data and a ciphertext of whole blocks, by its last block. -/
theorem ghash_last (h : BitVec 128) (a c b : List Byte) (hc : c.length % 16 = 0) (hb : b.length = 16) :
    ghash h (encoding a (c ++ b)) =
      mul (mul ((blocksOf (blockCount a + blockCount c) (pad16 a ++ c)).foldl (fun y xi => mul (y ^^^ xi) h) 0#128 ^^^ block b) h ^^^
        block (be64 (8 * a.length) ++ be64 (8 * (c.length + 16)))) h := by
  have hcb : (c ++ b).length = c.length + 16 := by rw [List.length_append, hb]
  rw [ghash, encoding_blocks, pad16_whole (l := c ++ b) (by omega)]
  have h1 : blocksOf (blockCount a + blockCount (c ++ b)) (pad16 a ++ (c ++ b)) = blocksOf (blockCount a + blockCount c) (pad16 a ++ c) ++ [block b] := by
    have hn : blockCount a + blockCount (c ++ b) = blockCount a + blockCount c + 1 := by simp only [blockCount, hcb]; omega
    have hl : (pad16 a ++ c).length = 16 * (blockCount a + blockCount c) := by
      rw [List.length_append, pad16_len]; simp only [blockCount]; omega
    rw [hn, ← List.append_assoc, blocksOf_append _ 1 _ _ hl]
    have h3 : blocksOf 1 b = [block b] := by
      rw [show (1 : Nat) = 0 + 1 from rfl, blocksOf_succ, Nat.mul_zero, List.drop_zero, List.take_of_length_le (by omega)]
      rfl
    rw [h3]
  rw [h1, List.foldl_append, List.foldl_append, hcb]
  rfl

/-- The linear equation for the block that makes two tags equal. -/
theorem collide (h h' x y z z' l : BitVec 128) (hne : h ≠ h') :
    ∃! b, mul (mul (x ^^^ b) h ^^^ l) h ^^^ z = mul (mul (y ^^^ b) h' ^^^ l) h' ^^^ z' := by
  have hd : elem h * elem h + elem h' * elem h' ≠ 0 := by
    have e : elem h * elem h + elem h' * elem h' = (elem h + elem h') * (elem h + elem h') := by
      have := gf_add_self (elem h * elem h')
      linear_combination -this
    rw [e]
    refine mul_self_ne_zero.mpr (fun h0 => hne (elem_inj ?_))
    rw [← add_right_cancel_iff (a := elem h'), gf_add_self, h0]
  have key : ∀ b, (mul (mul (x ^^^ b) h ^^^ l) h ^^^ z = mul (mul (y ^^^ b) h' ^^^ l) h' ^^^ z') ↔
      elem b * (elem h * elem h + elem h' * elem h') =
        elem x * elem h * elem h + elem l * elem h + elem z + elem y * elem h' * elem h' + elem l * elem h' + elem z' := by
    intro b
    have e1 : elem (mul (mul (x ^^^ b) h ^^^ l) h ^^^ z) = ((elem x + elem b) * elem h + elem l) * elem h + elem z := by
      simp only [elem_mul, elem_xor]
    have e2 : elem (mul (mul (y ^^^ b) h' ^^^ l) h' ^^^ z') = ((elem y + elem b) * elem h' + elem l) * elem h' + elem z' := by
      simp only [elem_mul, elem_xor]
    constructor
    · intro hb
      have hb := congrArg elem hb
      rw [e1, e2] at hb
      have s1 := gf_add_self (elem x * elem h * elem h + elem l * elem h + elem z)
      have s2 := gf_add_self (elem b * elem h' * elem h')
      linear_combination hb - s1 + s2
    · intro hb
      refine elem_inj ?_
      rw [e1, e2]
      have s1 := gf_add_self (elem x * elem h * elem h + elem l * elem h + elem z)
      have s2 := gf_add_self (elem b * elem h' * elem h')
      linear_combination hb + s1 - s2
  obtain ⟨i, hi⟩ : ∃ i : BitVec 128, elem i * (elem h * elem h + elem h' * elem h') = 1 := by
    have he : elem (mul h h ^^^ mul h' h') = elem h * elem h + elem h' * elem h' := by simp only [elem_mul, elem_xor]
    obtain ⟨i, hi⟩ := C88_standard.2 (mul h h ^^^ mul h' h') (fun h0 => hd (by rw [← he, h0, elem_zero]))
    refine ⟨i, ?_⟩
    have := congrArg elem hi
    rw [elem_mul, he] at this
    rw [mul_comm, this]
    exact elem_one
  have hs : ∀ r : BitVec 128, elem (mul r i) * (elem h * elem h + elem h' * elem h') = elem r := by
    intro r; rw [elem_mul, mul_assoc, hi, mul_one]
  refine ⟨mul (mul (mul x h) h ^^^ mul l h ^^^ z ^^^ mul (mul y h') h' ^^^ mul l h' ^^^ z') i, (key _).mpr ?_, fun b hb => ?_⟩
  · rw [hs]; simp only [elem_mul, elem_xor]
  · refine elem_inj (mul_right_cancel₀ hd ?_)
    rw [(key b).mp hb, hs]
    simp only [elem_mul, elem_xor]

/-- C115, what holds instead: take two sessions of any ciphers, keys, supported IVs and histories whose hash subkeys differ. Whatever additional data and
whole ciphertext blocks one starts from, exactly one further block gives a message that both sessions accept with one and the same tag. -/
theorem C115_partial {S S' : Type} (C : Cipher S) (C' : Cipher S') (key key' : List Byte) (E E' : M128 → M128) (hC : IsCipher C key E)
    (hC' : IsCipher C' key' E') (z0 z0' : M128) (iv iv' : List Byte) (hs : iv.length = 8 ∨ 12 ≤ iv.length) (hs' : iv'.length = 8 ∨ 12 ≤ iv'.length)
    (ops ops' : List GcmOp) (hne : E 0#128 ≠ E' 0#128) (c a : List Byte) (hc : c.length % 16 = 0) :
    ∃ g g', gcmAfter C z0 key iv ops = .ok g ∧ gcmAfter C' z0' key' iv' ops' = .ok g' ∧
      ∃! b : List Byte, b.length = 16 ∧ ∃ t p p' g1 g1', t.length = 16 ∧
        gcmDecrypt C g (c ++ b) a t = .ok ((p, true), g1) ∧ gcmDecrypt C' g' (c ++ b) a t = .ok ((p', true), g1') := by
  obtain ⟨g, e, h, _⟩ := gcmAfter_at hC z0 hs ops
  obtain ⟨g', e', h', _⟩ := gcmAfter_at hC' z0' hs' ops'
  refine ⟨g, g', e, e', ?_⟩
  have hlen : ∀ (E : M128 → M128) (j : List Byte), (ciph E j).length = 16 := fun E j => storeu_length _
  have hsub : subkey (ciph E) ≠ subkey (ciph E') := by
    intro h0
    apply hne
    have h1 := congrArg unblock h0
    rw [subkey, subkey, unblock_block _ (hlen _ _), unblock_block _ (hlen _ _)] at h1
    have h2 := congrArg loadBytes h1
    have hz : loadBytes (List.replicate 16 0#8) = 0#128 := by decide +kernel
    rw [ciph, ciph, hz, load_storeu, load_storeu] at h2
    exact h2
  have hd : ∀ {S : Type} {C : Cipher S} {E : M128 → M128} {iv : List Byte} {n : Nat} {g : Gcm S} (h : GcmAt C E iv n g) (hs : Supported iv) (b t : List Byte)
      (_ : b.length = 16), (∃ p g1, gcmDecrypt C g (c ++ b) a t = .ok ((p, true), g1)) ↔
        unblock (mul (mul ((blocksOf (blockCount a + blockCount c) (pad16 a ++ c)).foldl (fun y xi => mul (y ^^^ xi) (subkey (ciph E))) 0#128 ^^^ block b)
          (subkey (ciph E)) ^^^ block (be64 (8 * a.length) ++ be64 (8 * (c.length + 16)))) (subkey (ciph E)) ^^^ block (ciph E (jOf E iv (n % 2 ^ 64)))) = t := by
    intro S C E iv n g h hs b t hb
    rw [h.decrypt hs, ← unblock_xor _ _ (hlen _ _), ← ghash_last _ a c b hc hb, ← gctr_block _ _ _ (unblock_len _)]
    constructor
    · rintro ⟨p, g1, h1⟩
      have h2 := congrArg (fun r => r.1.2) (Except.ok.inj h1)
      exact of_decide_eq_true h2
    · intro ht
      refine ⟨gctr (ciph E) (inc32 (jOf E iv (n % 2 ^ 64))) (c ++ b), _, congrArg Except.ok (Prod.ext (Prod.ext rfl ?_) rfl)⟩
      exact decide_eq_true ht
  obtain ⟨B, hB, hu⟩ := collide (subkey (ciph E)) (subkey (ciph E'))
    ((blocksOf (blockCount a + blockCount c) (pad16 a ++ c)).foldl (fun y xi => mul (y ^^^ xi) (subkey (ciph E))) 0#128)
    ((blocksOf (blockCount a + blockCount c) (pad16 a ++ c)).foldl (fun y xi => mul (y ^^^ xi) (subkey (ciph E'))) 0#128)
    (block (ciph E (jOf E iv (ops.length % 2 ^ 64)))) (block (ciph E' (jOf E' iv' (ops'.length % 2 ^ 64))))
    (block (be64 (8 * a.length) ++ be64 (8 * (c.length + 16)))) hsub
  refine ⟨unblock B, ⟨unblock_len _, ?_⟩, ?_⟩
  · obtain ⟨p, g1, h1⟩ := (hd h hs (unblock B) _ (unblock_len _)).mpr rfl
    obtain ⟨p', g1', h1'⟩ := (hd h' hs' (unblock B) _ (unblock_len _)).mpr rfl
    refine ⟨_, p, p', g1, g1', unblock_len _, h1, ?_⟩
    rw [block_unblock] at h1' ⊢
    rw [hB]
    exact h1'
  · rintro b ⟨hb, t, p, p', g1, g1', _, h1, h1'⟩
    have e1 := (hd h hs b t hb).mp ⟨p, g1, h1⟩
    have e2 := (hd h' hs' b t hb).mp ⟨p', g1', h1'⟩
    have := hu (block b) (unblock_inj (e1.trans e2.symm))
    rw [← this, unblock_block b hb]

/-- Two AES-128 keys with different subkeys. -/
theorem aes128_subkeys : Aes.aes128 (List.replicate 16 0#8) (List.replicate 16 0#8) ≠ Aes.aes128 (List.replicate 16 1#8) (List.replicate 16 0#8) := by
  intro h
  have h1 := C52_aes128 (List.replicate 176 0#8) (List.replicate 16 0#8) (List.replicate 16 0#8) rfl
  have h2 := C52_aes128 (List.replicate 176 0#8) (List.replicate 16 1#8) (List.replicate 16 0#8) rfl
  rw [← h, ← h1] at h2
  revert h2
  decide +kernel

theorem C115_pair : ∃ E E', IsCipher (aesCipher128 (List.replicate 176 0#8)) (List.replicate 16 0#8) E ∧
    IsCipher (aesCipher128 (List.replicate 176 0#8)) (List.replicate 16 1#8) E' ∧ E 0#128 ≠ E' 0#128 := by
  obtain ⟨E, hC, hE⟩ := aes128_isCipher (List.replicate 176 0#8) (List.replicate 16 0#8) rfl
  obtain ⟨E', hC', hE'⟩ := aes128_isCipher (List.replicate 176 0#8) (List.replicate 16 1#8) rfl
  refine ⟨E, E', hC, hC', fun h0 => aes128_subkeys ?_⟩
  rw [← hE, ← hE', ciph, ciph, show loadBytes (List.replicate 16 0#8) = 0#128 by decide +kernel, h0]

/-- C115 fails for AES-128. -/
theorem C115_false : ¬ C115_claim := by
  intro h
  obtain ⟨E, E', hC, hC', hne⟩ := C115_pair
  obtain ⟨g, g', e, e', b, ⟨hb, t, p, p', g1, g1', ht, h1, h2⟩, _⟩ := C115_partial _ _ _ _ E E' hC hC' 0#128 0#128 (List.replicate 12 0#8)
    (List.replicate 12 0#8) (by decide) (by decide) [] [] hne [] [] rfl
  have en : ∀ (key : List Byte) (g : Gcm (List M128)), gcmAfter (aesCipher128 (List.replicate 176 0#8)) 0#128 key (List.replicate 12 0#8) [] = .ok g →
      gcmNew (aesCipher128 (List.replicate 176 0#8)) 0#128 key (List.replicate 12 0#8) = .ok g := by
    intro key g hg
    rw [gcmAfter] at hg
    cases hn : gcmNew (aesCipher128 (List.replicate 176 0#8)) 0#128 key (List.replicate 12 0#8) with
    | ok g0 => rw [hn] at hg; exact hg
    | error f => rw [hn] at hg; cases hg
  have := h (List.replicate 176 0#8) (List.replicate 16 0#8) (List.replicate 16 1#8) (List.replicate 12 0#8) _ [] t 0#128 g g' g1 g1' p p' true rfl rfl rfl rfl
    ht (by decide) (en _ g e) (en _ g' e') h1 h2
  cases this

/-- The hypotheses of `C115_partial` are met: two AES-128 keys. -/
example : ∃ E E', IsCipher (aesCipher128 (List.replicate 176 0#8)) (List.replicate 16 0#8) E ∧
    IsCipher (aesCipher128 (List.replicate 176 0#8)) (List.replicate 16 1#8) E' ∧ E 0#128 ≠ E' 0#128 := C115_pair

end Verif.Props
