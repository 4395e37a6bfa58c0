import Verif.Proof.Collide25519
import Mathlib.GroupTheory.Index
import Mathlib.GroupTheory.OrderOfElement

/-! Which u-coordinates are clamped multiples, and how many there are. -/

namespace Verif.Proof
open Verif.Spec

/-- A group of points with coordinates `u` in the prime field and a point `G` of large prime order in it. -/
structure Large (H : AddSubgroup Pt) (G : Pt) (q : Nat) : Prop where
  mem : G ∈ H
  order : addOrderOf G = q
  prime : q.Prime
  big : 2 ^ 252 < q
  odd : q % 2 = 1
  card : Nat.card H ∣ 8 * q
  fin : Finite H
  coord : ∀ x y h, (.some x y h : Pt) ∈ H → x ^ p25519 = x

variable {H : AddSubgroup Pt} {G : Pt} {q : Nat}

/-- Eight times any point of the group is a multiple of `G`. -/
theorem Large.eight_mem (L : Large H G q) {P : Pt} (hP : P ∈ H) : ∃ m : Nat, (8 : Nat) • P = m • G := by
  have := L.fin
  let g : H := ⟨G, L.mem⟩
  have hg : addOrderOf g = q := by rw [← L.order]; exact AddSubgroup.addOrderOf_mk G L.mem
  have hmul := AddSubgroup.card_mul_index (AddSubgroup.zmultiples g)
  rw [Nat.card_zmultiples, hg] at hmul
  have hd : (AddSubgroup.zmultiples g).index ∣ 8 := by
    have h := L.card
    rw [← hmul, mul_comm 8 q] at h
    exact Nat.dvd_of_mul_dvd_mul_left L.prime.pos h
  obtain ⟨c, hc⟩ := hd
  have hmem : (8 : Nat) • (⟨P, hP⟩ : H) ∈ AddSubgroup.zmultiples g := by
    rw [hc, mul_comm, mul_smul]
    exact AddSubgroup.nsmul_mem _ (AddSubgroup.nsmul_index_mem (AddSubgroup.zmultiples g) _) c
  have hfin : IsOfFinAddOrder g := isOfFinAddOrder_of_finite g
  rw [← hfin.mem_multiples_iff_mem_zmultiples] at hmem
  obtain ⟨m, hm⟩ := hmem
  refine ⟨m, ?_⟩
  have := congrArg Subtype.val hm
  exact this.symm

theorem Large.smul_eq (L : Large H G q) (a b : Nat) (h : a % q = b % q) : a • G = b • G := by
  rw [← mod_addOrderOf_nsmul G a, ← mod_addOrderOf_nsmul G b, L.order, h]

theorem Large.smul_zero (L : Large H G q) (a : Nat) : a • G = 0 ↔ q ∣ a := by
  rw [← addOrderOf_dvd_iff_nsmul_eq_zero, L.order]

/-- A multiple of `G` that is not zero is determined up to sign by a number of at most `(q - 1) / 2`. -/
theorem Large.half (L : Large H G q) (m : Nat) (hm : m • G ≠ 0) : ∃ n, n < (q - 1) / 2 ∧ uCoord (m • G) = uCoord ((n + 1) • G) := by
  have hq := L.big
  have ho := L.odd
  have h0 : m % q ≠ 0 := fun h => hm ((L.smul_zero m).mpr (Nat.dvd_of_mod_eq_zero h))
  have hlt := Nat.mod_lt m L.prime.pos
  have e : m • G = (m % q) • G := L.smul_eq _ _ (Nat.mod_mod _ _).symm
  by_cases hs : m % q ≤ (q - 1) / 2
  · exact ⟨m % q - 1, by omega, by rw [e, Nat.sub_add_cancel (by omega)]⟩
  · refine ⟨q - m % q - 1, by omega, ?_⟩
    have hn : (q - m % q - 1 + 1) • G = -(m • G) := by
      rw [e, eq_neg_iff_add_eq_zero, ← add_smul, show q - m % q - 1 + 1 + m % q = q by omega]
      exact (L.smul_zero q).mpr dvd_rfl
    have hne : (q - m % q - 1 + 1) • G ≠ 0 := by
      rw [hn]; exact fun hc => hm (neg_eq_zero.mp hc)
    refine (uCoord_eq hm hne).mpr (.inr ?_)
    rw [hn, neg_neg]

theorem Large.half_ne (L : Large H G q) {n : Nat} (hn : n < (q - 1) / 2) : (n + 1) • G ≠ 0 := by
  have hq := L.big
  rw [Ne, L.smul_zero]
  intro hd
  have := Nat.le_of_dvd (by omega) hd
  omega

theorem Large.half_inj (L : Large H G q) {n n' : Nat} (hn : n < (q - 1) / 2) (hn' : n' < (q - 1) / 2) (h : uCoord ((n + 1) • G) = uCoord ((n' + 1) • G)) : n = n' := by
  have hq := L.big
  have ho := L.odd
  rcases (uCoord_eq (L.half_ne hn) (L.half_ne hn')).mp h with h | h
  · have := (nsmul_eq_nsmul_iff_modEq (x := G)).mp h
    rw [L.order] at this
    have e := Nat.ModEq.eq_of_lt_of_lt this (by omega) (by omega)
    omega
  · rw [eq_neg_iff_add_eq_zero, ← add_smul, L.smul_zero] at h
    have := Nat.le_of_dvd (by omega) h
    omega

theorem Large.two_ne (L : Large H G q) {Q : Pt} (m : Nat) (hQ : Q = m • G) (h0 : Q ≠ 0) : (2 : Nat) • Q ≠ 0 := by
  intro h
  rw [hQ, smul_smul, L.smul_zero] at h
  rw [hQ, Ne, L.smul_zero] at h0
  rcases (Nat.Prime.dvd_mul L.prime).mp h with h | h
  · have hq := L.big
    have := Nat.le_of_dvd (by decide) h
    omega
  · exact h0 h

theorem Large.half_zero (L : Large H G q) {n : Nat} (hn : n < (q - 1) / 2) : uCoord ((n + 1) • G) ≠ 0 :=
  fun h => L.two_ne (n + 1) rfl (L.half_ne hn) (uCoord_zero h)

/-- Every multiple of `G` is a multiple by a given number that `q` does not divide, of a point over a residue. -/
theorem Large.onto (L : Large H G q) (s : Nat) (hs : ¬ q ∣ s) (n : Nat) (hn : n < (q - 1) / 2) :
    ∃ (u : ZMod p25519) (v : Kc) (h : (curve25519 Kc).Nonsingular (algebraMap _ _ u) v), s • (.some _ v h : Pt) = (n + 1) • G := by
  have hq := L.big
  obtain ⟨t, _, ht⟩ := Nat.exists_mul_mod_eq_one_of_coprime ((Nat.Prime.coprime_iff_not_dvd L.prime).mpr hs).symm L.prime.one_lt
  have hx : s • ((t * (n + 1)) • G) = (n + 1) • G := by
    rw [smul_smul]
    apply L.smul_eq
    rw [← mul_assoc, Nat.mul_mod, ht, one_mul, Nat.mod_mod]
  have hm : (t * (n + 1)) • G ∈ H := AddSubgroup.nsmul_mem _ L.mem _
  have hne := L.half_ne hn
  generalize (t * (n + 1)) • G = P at hx hm
  cases P with
  | zero =>
    exfalso
    apply hne
    rw [← hx]
    exact nsmul_zero (M := Pt) s
  | some x y h =>
    obtain ⟨u, rfl⟩ := (fixed_iff x).mp (L.coord x y h hm)
    exact ⟨u, y, h, hx⟩

/-- the base points of the curve and of the twist -/
noncomputable def Gp : Pt := ptOf ((9 : Nat) : ZMod p25519)
noncomputable def Gm : Pt := ptOf ((2 : Nat) : ZMod p25519)

theorem large_p : Large Hp Gp ell where
  mem := (nine_order _ _).1
  order := (nine_order _ _).2
  prime := ell_prime
  big := by decide +kernel
  odd := by decide +kernel
  card := by rw [Hp_order]
  fin := Hp_card.1
  coord := Hp_coord

theorem large_m : Large Hm Gm ell' where
  mem := (two_order _ _).1
  order := (two_order _ _).2
  prime := ell'_prime
  big := by decide +kernel
  odd := by decide +kernel
  card := Hm_order
  fin := Hm_card.1
  coord := Hm_coord

/-- All u-coordinates of clamped multiples, each once. -/
noncomputable def allSecrets : Option (Fin ((ell - 1) / 2) ⊕ Fin ((ell' - 1) / 2)) → Kc
  | none => 0
  | some (.inl n) => uCoord ((n.1 + 1) • Gp)
  | some (.inr n) => uCoord ((n.1 + 1) • Gm)

theorem allSecrets_inj : Function.Injective allSecrets := by
  have cross : ∀ (n : Fin ((ell - 1) / 2)) (m : Fin ((ell' - 1) / 2)), uCoord ((n.1 + 1) • Gp) ≠ uCoord ((m.1 + 1) • Gm) := by
    intro n m h
    have h1 := large_p.half_ne n.2
    have h2 := large_m.half_ne m.2
    have hm : (n.1 + 1) • Gp ∈ Hm := by
      rcases (uCoord_eq h1 h2).mp h with h | h
      · rw [h]; exact AddSubgroup.nsmul_mem _ large_m.mem _
      · rw [h]; exact AddSubgroup.neg_mem _ (AddSubgroup.nsmul_mem _ large_m.mem _)
    have hp : (n.1 + 1) • Gp ∈ Hp := AddSubgroup.nsmul_mem _ large_p.mem _
    rw [mem_Hm] at hm
    rw [mem_Hp] at hp
    refine large_p.two_ne _ rfl h1 ?_
    rw [two_nsmul]
    nth_rewrite 1 [← hp]
    rw [hm]
    exact neg_add_cancel _
  rintro (_ | n | n) (_ | m | m) h
  · rfl
  · exact absurd h.symm (large_p.half_zero m.2)
  · exact absurd h.symm (large_m.half_zero m.2)
  · exact absurd h (large_p.half_zero n.2)
  · rw [Fin.ext (large_p.half_inj n.2 m.2 h)]
  · exact absurd h (cross n m)
  · exact absurd h (large_m.half_zero n.2)
  · exact absurd h.symm (cross m n)
  · rw [Fin.ext (large_m.half_inj n.2 m.2 h)]

/-- The clamped multiples of all residues by one number. -/
theorem xmul_range (s : Nat) (h1 : 2 ^ 251 ≤ s) (h2 : s < 2 ^ 252) :
    Set.range (fun u : ZMod p25519 => algebraMap (ZMod p25519) Kc (xmul 255 (8 * s) u)) = Set.range allSecrets := by
  have hx := fun (u : ZMod p25519) v h => xmul_uCoord (K := Kc) 255 (8 * s) (by decide) (by omega) (by omega) u v h
  have nd : ∀ q : Nat, q.Prime → 2 ^ 252 < q → ¬ q ∣ 8 * s := by
    intro q hq hb hd
    rcases (Nat.Prime.dvd_mul hq).mp hd with h | h
    · have := Nat.le_of_dvd (by decide) h
      omega
    · have := Nat.le_of_dvd (by omega) h
      omega
  apply Set.eq_of_subset_of_subset
  · rintro _ ⟨u, rfl⟩
    obtain ⟨v, h⟩ := exists_point u
    simp only
    by_cases hl : LowOrder u
    · exact ⟨none, by rw [(xmul_zero_iff s (by omega) h2 u).mpr hl, map_zero]; rfl⟩
    · have hne : (8 * s) • (.some _ v h : Pt) ≠ 0 := by
        intro hc
        apply hl
        rw [← low_point u s (by omega) h2 v h, hc]
        rfl
      rw [hx u v h]
      rw [mul_comm 8 s, mul_smul] at hne ⊢
      rcases point_cases u v h with hp | hm
      · obtain ⟨m, hm⟩ := large_p.eight_mem hp
        rw [hm, smul_smul] at hne ⊢
        obtain ⟨n, hn, e⟩ := large_p.half _ hne
        exact ⟨some (.inl ⟨n, hn⟩), e.symm⟩
      · obtain ⟨m, hm⟩ := large_m.eight_mem hm
        rw [hm, smul_smul] at hne ⊢
        obtain ⟨n, hn, e⟩ := large_m.half _ hne
        exact ⟨some (.inr ⟨n, hn⟩), e.symm⟩
  · rintro _ ⟨_ | n | n, rfl⟩
    · refine ⟨0, ?_⟩
      simp only
      rw [(xmul_zero_iff s (by omega) h2 0).mpr (.inl rfl), map_zero]
      rfl
    · obtain ⟨u, v, h, e⟩ := large_p.onto (8 * s) (nd _ large_p.prime large_p.big) n.1 n.2
      exact ⟨u, by simp only; rw [hx u v h, e]; rfl⟩
    · obtain ⟨u, v, h, e⟩ := large_m.onto (8 * s) (nd _ large_m.prime large_m.big) n.1 n.2
      exact ⟨u, by simp only; rw [hx u v h, e]; rfl⟩

end Verif.Proof
