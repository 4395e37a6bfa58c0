import Mathlib.Algebra.Polynomial.Roots
import Verif.Proof.GF128
import Verif.Proof.GcmCtr

/-! GHASH as a polynomial in the hash subkey. -/

namespace Verif.Proof

open Polynomial Verif.Model Verif.Spec Verif.Spec.Gcm

/-- The polynomial whose value at `H` is GHASH. -/
noncomputable def hpoly (L : List (BitVec 128)) : GF[X] := L.foldl (fun Y x => (Y + C (elem x)) * X) 0

theorem hpoly_snoc (L : List (BitVec 128)) (x : BitVec 128) : hpoly (L ++ [x]) = (hpoly L + C (elem x)) * X := by
  rw [hpoly, List.foldl_append]; rfl

theorem hpoly_eval (h : BitVec 128) (L : List (BitVec 128)) :
    (hpoly L).eval (elem h) = elem (L.foldl (fun y xi => mul (y ^^^ xi) h) 0#128) := by
  induction L using List.reverseRecOn with
  | nil => simp [hpoly, elem_zero]
  | append_singleton L x ih =>
    rw [hpoly_snoc, List.foldl_append, List.foldl_cons, List.foldl_nil, elem_mul, elem_xor, eval_mul, eval_add, eval_C, eval_X, ih]

theorem hpoly_coeff (L : List (BitVec 128)) : ∀ j, (hpoly L).coeff (j + 1) = elem (L.reverse.getD j 0#128) := by
  induction L using List.reverseRecOn with
  | nil => intro j; simp [hpoly, elem_zero]
  | append_singleton L x ih =>
    intro j
    rw [hpoly_snoc, coeff_mul_X, coeff_add, List.reverse_append, List.reverse_singleton, List.singleton_append]
    cases j with
    | zero =>
      have : (hpoly L).coeff 0 = 0 := by
        cases L using List.reverseRecOn with
        | nil => simp [hpoly]
        | append_singleton L y => rw [hpoly_snoc, coeff_mul_X_zero]
      rw [this, coeff_C_zero, zero_add, List.getD_cons_zero]
    | succ j => rw [ih, coeff_C_succ, add_zero, List.getD_cons_succ]

theorem hpoly_degree (L : List (BitVec 128)) : (hpoly L).natDegree ≤ L.length := by
  rw [natDegree_le_iff_coeff_eq_zero]
  intro n hn
  cases n with
  | zero => omega
  | succ n => rw [hpoly_coeff, List.getD_eq_default _ _ (by simp; omega), elem_zero]

/-- A polynomial that vanishes at many blocks is zero. -/
theorem roots_bound (D : GF[X]) (hD : D ≠ 0) (S : Finset (BitVec 128)) (hS : ∀ h ∈ S, D.eval (elem h) = 0) : S.card ≤ D.natDegree := by
  classical
  rw [← Finset.card_image_of_injective S (fun _ _ h => elem_inj h)]
  apply card_le_degree_of_subset_roots
  intro x hx
  rw [Finset.mem_val, Finset.mem_image] at hx
  obtain ⟨h, hh, rfl⟩ := hx
  rw [mem_roots hD]
  exact hS h hh

/-- Two lists of blocks whose GHASH values have a given difference for many subkeys have the same polynomial. -/
theorem ghash_difference (L M : List (BitVec 128)) (d : BitVec 128) (S : Finset (BitVec 128)) (i : Nat)
    (hne : L.reverse.getD i 0#128 ≠ M.reverse.getD i 0#128)
    (hS : ∀ h ∈ S, L.foldl (fun y xi => mul (y ^^^ xi) h) 0#128 ^^^ M.foldl (fun y xi => mul (y ^^^ xi) h) 0#128 = d) :
    S.card ≤ max L.length M.length := by
  have hD : hpoly L - hpoly M - C (elem d) ≠ 0 := by
    intro h
    have := congrArg (fun p => p.coeff (i + 1)) h
    simp only [coeff_sub, coeff_C_succ, hpoly_coeff, coeff_zero, sub_zero] at this
    exact hne (elem_inj (sub_eq_zero.mp this))
  refine (roots_bound _ hD S (fun h hh => ?_)).trans ?_
  · rw [eval_sub, eval_sub, hpoly_eval, hpoly_eval, eval_C, ← hS h hh, elem_xor, sub_eq_add_neg _ (elem _ + elem _), gf_neg, sub_eq_add_neg, gf_neg,
      gf_add_self]
  · refine (natDegree_sub_le _ _).trans (max_le ((natDegree_sub_le _ _).trans (max_le_max (hpoly_degree L) (hpoly_degree M))) ?_)
    rw [natDegree_C]; exact Nat.zero_le _

/-! ### The encoding of additional data and ciphertext -/

theorem blocks_inj (n : Nat) (x y : List Byte) (hx : x.length = 16 * n) (hy : y.length = 16 * n) (h : blocksOf n x = blocksOf n y) : x = y := by
  have hc : ∀ k, k < n → (x.drop (16 * k)).take 16 = (y.drop (16 * k)).take 16 := by
    intro k hk
    have h1 := congrArg (fun l => l.getD k 0#128) h
    simp only [blocksOf] at h1
    rw [List.getD_eq_getElem _ _ (by simpa using hk), List.getD_eq_getElem _ _ (by simpa using hk), List.getElem_map, List.getElem_map,
      List.getElem_range] at h1
    rw [← unblock_block ((x.drop (16 * k)).take 16) (by simp; omega), ← unblock_block ((y.drop (16 * k)).take 16) (by simp; omega), h1]
  refine List.ext_getElem? (fun i => ?_)
  by_cases hi : i < 16 * n
  · have h1 := congrArg (fun l => l[i % 16]?) (hc (i / 16) (by omega))
    simp only [List.getElem?_take, List.getElem?_drop, if_pos (Nat.mod_lt i (by decide : 0 < 16))] at h1
    rwa [Nat.div_add_mod] at h1
  · rw [List.getElem?_eq_none (by omega), List.getElem?_eq_none (by omega)]

/-- The string that GCM authenticates (section 7.1, step 5). -/
def encoding (a c : List Byte) : List Byte := pad16 a ++ pad16 c ++ be64 (8 * a.length) ++ be64 (8 * c.length)

/-- The number of blocks of a string. -/
def blockCount (l : List Byte) : Nat := (l.length + 15) / 16

theorem pad16_len (l : List Byte) : (pad16 l).length = 16 * blockCount l := by
  rw [pad16, blockCount, List.length_append, List.length_replicate]; omega

theorem encoding_length (a c : List Byte) : (encoding a c).length = 16 * (blockCount a + blockCount c + 1) := by
  simp only [encoding, List.length_append, pad16_len, be64_length]; omega

theorem encoding_blocks (a c : List Byte) : blocksOf ((encoding a c).length / 16) (encoding a c) =
    blocksOf (blockCount a + blockCount c) (pad16 a ++ pad16 c) ++ [block (be64 (8 * a.length) ++ be64 (8 * c.length))] := by
  have h1 : (encoding a c).length / 16 = blockCount a + blockCount c + 1 := by rw [encoding_length]; omega
  have h2 : (be64 (8 * a.length) ++ be64 (8 * c.length)).length = 16 := by simp [be64_length]
  rw [h1, encoding, List.append_assoc, blocksOf_append _ 1 _ _ (by simp only [List.length_append, pad16_len]; omega)]
  have h3 : blocksOf 1 (be64 (8 * a.length) ++ be64 (8 * c.length)) = [block (be64 (8 * a.length) ++ be64 (8 * c.length))] := by
    rw [show (1 : Nat) = 0 + 1 from rfl, blocksOf_succ, Nat.mul_zero, List.drop_zero, List.take_of_length_le (by omega)]
    rfl
  rw [h3]

theorem be64_inj {n m : Nat} (hn : n < 2 ^ 64) (hm : m < 2 ^ 64) (h : be64 n = be64 m) : n = m := by
  rw [be64_eq, be64_eq] at h
  have := congrArg beNat h
  rwa [beNat_i2osp, beNat_i2osp, Nat.mod_eq_of_lt hn, Nat.mod_eq_of_lt hm] at this

/-- Different messages differ in some coefficient. -/
theorem encoding_differs (a c a' c' : List Byte) (ha : a.length < 2 ^ 61) (hc : c.length < 2 ^ 61) (ha' : a'.length < 2 ^ 61)
    (hc' : c'.length < 2 ^ 61) (hne : (a, c) ≠ (a', c')) :
    ∃ i, (blocksOf ((encoding a c).length / 16) (encoding a c)).reverse.getD i 0#128 ≠
      (blocksOf ((encoding a' c').length / 16) (encoding a' c')).reverse.getD i 0#128 := by
  by_contra hcon
  have hall := fun i => Classical.not_not.mp (not_exists.mp hcon i)
  have h0 := hall 0
  rw [encoding_blocks, encoding_blocks] at h0
  simp only [List.reverse_append, List.reverse_singleton, List.singleton_append, List.getD_cons_zero] at h0
  have h1 := congrArg unblock h0
  rw [unblock_block _ (by simp [be64_length]), unblock_block _ (by simp [be64_length])] at h1
  obtain ⟨e1, e2⟩ := List.append_inj h1 (by simp [be64_length])
  have la : a.length = a'.length := by have := be64_inj (by omega) (by omega) e1; omega
  have lc : c.length = c'.length := by have := be64_inj (by omega) (by omega) e2; omega
  have ba : blockCount a = blockCount a' := by rw [blockCount, la, blockCount]
  have bc : blockCount c = blockCount c' := by rw [blockCount, lc, blockCount]
  have hlen : (encoding a c).length = (encoding a' c').length := by rw [encoding_length, encoding_length, ba, bc]
  have hb : blocksOf ((encoding a c).length / 16) (encoding a c) = blocksOf ((encoding a' c').length / 16) (encoding a' c') := by
    rw [← List.reverse_inj]
    refine list_ext_getD 0#128 ?_ (fun i _ => hall i)
    simp [blocksOf, hlen]
  rw [hlen] at hb
  have hl := encoding_length a' c'
  have he := blocks_inj _ _ _ (by omega) (by omega) hb
  rw [encoding, encoding] at he
  obtain ⟨h1, _⟩ := List.append_inj he (by simp only [List.length_append, pad16_len, ba, bc, be64_length])
  obtain ⟨h2, _⟩ := List.append_inj h1 (by simp only [List.length_append, pad16_len, ba, bc])
  obtain ⟨h3, h4⟩ := List.append_inj h2 (by simp only [pad16_len, ba])
  obtain ⟨h5, _⟩ := List.append_inj h3 la
  obtain ⟨h6, _⟩ := List.append_inj h4 lc
  exact hne (by rw [h5, h6])

end Verif.Proof
