import Verif.Proof.LowOrder
import Mathlib.NumberTheory.LegendreSymbol.Basic

/-! When multiples by clamped scalars vanish or coincide. -/

namespace Verif.Proof
open Verif.Spec

theorem Hp_kill {P : Pt} (h : P ∈ Hp) : (8 * ell) • P = 0 := by
  have := dvd_card _ _ h
  rw [Hp_order] at this
  exact addOrderOf_dvd_iff_nsmul_eq_zero.mp this

theorem Hm_kill {P : Pt} (h : P ∈ Hm) : (8 * ell') • P = 0 :=
  addOrderOf_dvd_iff_nsmul_eq_zero.mp ((dvd_card _ _ h).trans Hm_order)

theorem drop_cofactor {P : Pt} {q n : Nat} (hq : q.Prime) (hP : (8 * q) • P = 0) (hn : ¬ q ∣ n) (h : (8 * n) • P = 0) : 8 • P = 0 := by
  rw [← addOrderOf_dvd_iff_nsmul_eq_zero] at *
  have hc : Nat.Coprime q n := (Nat.Prime.coprime_iff_not_dvd hq).mpr hn
  have := Nat.dvd_gcd hP h
  rwa [Nat.gcd_mul_left, hc.gcd_eq_one, mul_one] at this

/-- The order of the large subgroup that belongs to `u`: `ell` if `u` is on the curve, `ell'` if it is on the twist. -/
noncomputable def bigOrder (u : ZMod p25519) : Nat := by
  classical exact if IsSquare (rhs u) then ell else ell'

theorem bigOrder_kill (u : ZMod p25519) (hu : u ≠ 0) (v : Kc) (h : (curve25519 Kc).Nonsingular (algebraMap _ _ u) v) :
    (8 * bigOrder u) • (.some _ v h : Pt) = 0 := by
  have h2 : p25519 ≠ 2 := by decide +kernel
  have hr : rhs u ≠ 0 := by
    intro hc
    have : u * (u ^ 2 + 486662 * u * 1 + 1 ^ 2) = 0 := by rw [rhs] at hc; linear_combination hc
    exact one_ne_zero (quad_ne ((mul_eq_zero.mp this).resolve_left hu)).1
  have e2 : p25519 / 2 = (p25519 - 1) / 2 := by decide +kernel
  unfold bigOrder
  split
  · next hs =>
    apply Hp_kill
    apply mem_Hp_of
    rw [← e2]
    exact (ZMod.euler_criterion p25519 hr).mp hs
  · next hs =>
    apply Hm_kill
    apply mem_Hm_of
    rw [← e2]
    rcases ZMod.pow_div_two_eq_neg_one_or_one p25519 hr with h | h
    · exact absurd ((ZMod.euler_criterion p25519 hr).mpr h) hs
    · exact h

theorem bigOrder_cases (u : ZMod p25519) : (bigOrder u = ell ∨ bigOrder u = ell') := by
  unfold bigOrder
  split
  · exact .inl rfl
  · exact .inr rfl

theorem bigOrder_prime (u : ZMod p25519) : (bigOrder u).Prime := by
  rcases bigOrder_cases u with h | h <;> rw [h]
  · exact ell_prime
  · exact ell'_prime

theorem bigOrder_gt (u : ZMod p25519) : 2 ^ 252 < bigOrder u ∧ bigOrder u % 2 = 1 := by
  rcases bigOrder_cases u with h | h <;> rw [h] <;> decide +kernel

theorem smul_low {P : Pt} (n : Nat) (h : 8 • P = 0) : (8 * n) • P = 0 := by
  rw [mul_comm, mul_smul, h]; exact nsmul_zero n

/-- a point whose u-coordinate is taken to be zero has order one or two -/
theorem uCoord_zero {P : Pt} (h : uCoord P = 0) : 2 • P = 0 := by
  cases P with
  | zero => exact nsmul_zero (M := Pt) 2
  | some x y hns =>
    have hx : x = 0 := h
    subst hx
    have := (equation_mont (A := (486662 : Kc)) 0 y).mp hns.1
    have hv : y ^ 2 = 0 := by rw [this]; ring
    have hY : y = 0 := pow_eq_zero_iff (by decide) |>.mp hv
    rw [two_smul]
    apply WeierstrassCurve.Affine.Point.add_self_of_Y_eq
    simp [WeierstrassCurve.Affine.negY, curve25519, hY]

theorem uCoord_eq {P Q : Pt} (hP : P ≠ 0) (hQ : Q ≠ 0) : uCoord P = uCoord Q ↔ P = Q ∨ P = -Q := by
  cases P with
  | zero => exact absurd rfl hP
  | some x y h =>
    cases Q with
    | zero => exact absurd rfl hQ
    | some x' y' h' => exact WeierstrassCurve.Affine.Point.X_eq_iff

theorem low_point (u : ZMod p25519) (m : Nat) (h1 : 0 < m) (h2 : m < 2 ^ 252) (v : Kc) (h : (curve25519 Kc).Nonsingular (algebraMap _ _ u) v) :
    uCoord ((8 * m) • (.some _ v h : Pt)) = 0 ↔ LowOrder u := by
  constructor
  · intro hz
    by_cases hu : u = 0
    · exact .inl hu
    rw [← eight_zero_iff u v h]
    have h3 := uCoord_zero hz
    rw [smul_smul, show 2 * (8 * m) = 8 * (2 * m) by ring] at h3
    refine drop_cofactor (bigOrder_prime u) (bigOrder_kill u hu v h) (fun hd => ?_) h3
    obtain ⟨hb, ho⟩ := bigOrder_gt u
    rcases (Nat.Prime.dvd_mul (bigOrder_prime u)).mp hd with hd | hd
    · have := Nat.le_of_dvd (by decide) hd
      omega
    · have := Nat.le_of_dvd h1 hd
      omega
  · intro hl
    rw [smul_low m ((eight_zero_iff u v h).mpr hl)]
    rfl

/-- Clamped multiples vanish for the five residues of low order and for no other. -/
theorem xmul_zero_iff (m : Nat) (h1 : 0 < m) (h2 : m < 2 ^ 252) (u : ZMod p25519) : xmul 255 (8 * m) u = 0 ↔ LowOrder u := by
  obtain ⟨v, h⟩ := exists_point u
  rw [← low_point u m h1 h2 v h, ← map_eq_zero (algebraMap (ZMod p25519) Kc), xmul_uCoord 255 (8 * m) (by decide) (by omega) (by omega) u v h]

/-- When two clamped multiples coincide. -/
theorem xmul_eq_iff (m n : Nat) (hm1 : 2 ^ 251 ≤ m) (hm2 : m < 2 ^ 252) (hn1 : 2 ^ 251 ≤ n) (hn2 : n < 2 ^ 252) (u : ZMod p25519) (hu : ¬ LowOrder u) :
    xmul 255 (8 * m) u = xmul 255 (8 * n) u ↔ m = n ∨ m + n = bigOrder u := by
  obtain ⟨v, h⟩ := exists_point u
  have hu0 : u ≠ 0 := fun hc => hu (.inl hc)
  obtain ⟨hb, ho⟩ := bigOrder_gt u
  have hkill := bigOrder_kill u hu0 v h
  have hprime := bigOrder_prime u
  have hne : ∀ k, 0 < k → k < 2 ^ 252 → (8 * k) • (.some _ v h : Pt) ≠ 0 := by
    intro k k1 k2 hc
    apply hu
    rw [← low_point u k k1 k2 v h, hc]
    rfl
  rw [← (algebraMap (ZMod p25519) Kc).injective.eq_iff, xmul_uCoord 255 (8 * m) (by decide) (by omega) (by omega) u v h,
    xmul_uCoord 255 (8 * n) (by decide) (by omega) (by omega) u v h]
  refine (uCoord_eq (hne m (by omega) hm2) (hne n (by omega) hn2)).trans ?_
  have hlow : ∀ k, (8 * k) • (.some _ v h : Pt) = 0 → bigOrder u ∣ k := by
    intro k hk
    by_contra hd
    exact hu ((eight_zero_iff u v h).mp (drop_cofactor hprime hkill hd hk))
  have hsum : ∀ k, k < 2 ^ 253 → 0 < k → bigOrder u ∣ k → k = bigOrder u := by
    intro k k1 k2 ⟨c, hc⟩
    have : c < 2 := by
      by_contra hcc
      have : bigOrder u * 2 ≤ bigOrder u * c := Nat.mul_le_mul_left _ (by omega)
      omega
    have : c ≠ 0 := by rintro rfl; omega
    have : c = 1 := by omega
    rw [hc, this, mul_one]
  have hdiff : ∀ a b : Nat, a ≤ b → b < 2 ^ 252 → (8 * b) • (.some _ v h : Pt) = (8 * a) • (.some _ v h : Pt) → a = b := by
    intro a b hab hb2 he
    have hd : (8 * (b - a)) • (.some _ v h : Pt) = 0 := by
      have : 8 * b = 8 * (b - a) + 8 * a := by omega
      rw [this, add_smul] at he
      exact add_eq_right.mp he
    have := hlow _ hd
    by_contra hc
    have := Nat.le_of_dvd (by omega) this
    omega
  constructor
  · rintro (he | he)
    · left
      rcases Nat.le_total m n with hmn | hmn
      · exact hdiff m n hmn hn2 he.symm
      · exact (hdiff n m hmn hm2 he).symm
    · right
      apply hsum _ (by omega) (by omega)
      apply hlow
      rw [mul_add, add_smul, he, neg_add_cancel]
  · rintro (he | he)
    · left; rw [he]
    · right
      rw [← he, mul_add, add_smul] at hkill
      exact eq_neg_of_add_eq_zero_left hkill

end Verif.Proof
