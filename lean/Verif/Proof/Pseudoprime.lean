import Verif.Spec.Prime
import Mathlib.NumberTheory.LegendreSymbol.QuadraticReciprocity
import Mathlib.NumberTheory.LegendreSymbol.Basic
import Mathlib.Tactic.Ring

/-! Products of primes that are strong pseudoprimes to many bases at once. -/

namespace Verif.Proof
open Verif.Spec

theorem prod_dvd_of_primes (x : Nat) : ∀ (ps : List Nat), ps.Nodup → (∀ p ∈ ps, p.Prime) → (∀ p ∈ ps, p ∣ x) → ps.prod ∣ x
  | [], _, _, _ => by simp
  | p :: ps, hn, hp, hd => by
    rw [List.nodup_cons] at hn
    rw [List.prod_cons]
    refine Nat.Coprime.mul_dvd_of_dvd_of_dvd ?_ (hd p (by simp)) (prod_dvd_of_primes x ps hn.2 (fun q h => hp q (by simp [h])) (fun q h => hd q (by simp [h])))
    rw [(hp p (by simp)).coprime_iff_not_dvd]
    intro h
    obtain ⟨q, hq, hpq⟩ := ((hp p (by simp)).prime.dvd_prod_iff).mp h
    rw [(Nat.prime_dvd_prime_iff_eq (hp p (by simp)) (hp q (by simp [hq]))).mp hpq] at hn
    exact hn.1 hq

/-- The quadratic character of `a` modulo primes that are nonzero squares modulo `a` and 3 modulo 4 is the same. -/
theorem legendre_odd (p a : Nat) [Fact p.Prime] [Fact a.Prime] (ha : a ≠ 2) (h4 : p % 4 = 3) (h1 : ∃ y, p % a = y * y % a ∧ y % a ≠ 0) :
    legendreSym p a = (-1) ^ (a / 2) := by
  obtain ⟨y, hy, h0⟩ := h1
  have hp : p ≠ 2 := by rintro rfl; omega
  rw [legendreSym.quadratic_reciprocity' ha hp]
  have e : legendreSym a (p : ℤ) = 1 := by
    rw [legendreSym.mod, show ((p : ℤ) % (a : ℤ)) = ((y : ℤ) ^ 2) % (a : ℤ) by rw [pow_two]; exact_mod_cast hy, ← legendreSym.mod]
    refine legendreSym.sq_one' a ?_
    rw [Int.cast_natCast, Ne, ZMod.natCast_eq_zero_iff]
    exact fun h => h0 (Nat.mod_eq_zero_of_dvd h)
  rw [e, mul_one, Nat.mul_comm, pow_mul]
  have : (-1 : ℤ) ^ (p / 2) = -1 := Odd.neg_one_pow ⟨p / 4, by omega⟩
  rw [this]

theorem legendre_two (p q : Nat) [Fact p.Prime] [Fact q.Prime] (hp : p ≠ 2) (hq : q ≠ 2) (h : p % 8 = q % 8) : legendreSym p 2 = legendreSym q 2 := by
  rw [legendreSym.at_two hp, legendreSym.at_two hq, ZMod.χ₈_nat_mod_eight, h, ← ZMod.χ₈_nat_mod_eight]

/-- Euler's criterion for an odd multiple of `(p - 1) / 2`. -/
theorem euler_odd (p a c : Nat) [Fact p.Prime] (h4 : p % 4 = 3) (ha : ¬ p ∣ a) (hc : c % 2 = 1) :
    ((legendreSym p a : ℤ) : ZMod p) = (a : ZMod p) ^ (p / 2 * c) := by
  rw [pow_mul]
  have h := legendreSym.eq_pow p (a : ℤ)
  rw [Int.cast_natCast] at h
  rw [← h, ← Int.cast_pow]
  have ha' : ((a : ℤ) : ZMod p) ≠ 0 := by
    rw [Int.cast_natCast, Ne, ZMod.natCast_eq_zero_iff]; exact ha
  rcases legendreSym.eq_one_or_neg_one p ha' with h | h
  · rw [h, one_pow]
  · rw [h, Odd.neg_one_pow (Nat.odd_iff.mpr hc)]

theorem sprp_of_factors (ps : List Nat) (hne : ps ≠ []) (hn : ps.Nodup) (hp : ∀ p ∈ ps, p.Prime) (r : Nat) (hr : r % 4 = 3) (h8 : ∀ p ∈ ps, p % 8 = r)
    (hodd : ps.prod % 2 = 1) (h2 : 1 < ps.prod) (hc : ∀ p ∈ ps, ps.prod % (p - 1) = 1) (a : Nat) (ha : a.Prime) 
    (h1 : a ≠ 2 → ∀ p ∈ ps, ∃ y, p % a = y * y % a ∧ y % a ≠ 0) (hlt : ∀ p ∈ ps, a < p) :
    StrongProbablePrime ps.prod a := by
  generalize hN : ps.prod = n at *
  haveI : Fact a.Prime := ⟨ha⟩
  obtain ⟨k, d, hd, hnd⟩ := Nat.exists_eq_two_pow_mul_odd (n := n - 1) (by omega)
  have hk : 1 ≤ k := by
    rcases k with _ | k
    · rw [pow_zero, one_mul] at hnd
      obtain ⟨m, hm⟩ := hd
      omega
    · omega
  obtain ⟨s, hs, hall⟩ : ∃ s : ℤ, (s = 1 ∨ s = -1) ∧ ∀ p ∈ ps, ((s : ℤ) : ZMod p) = (a : ZMod p) ^ d := by
    obtain ⟨p0, hp0⟩ := List.exists_mem_of_ne_nil ps hne
    haveI : Fact p0.Prime := ⟨hp p0 hp0⟩
    refine ⟨legendreSym p0 a, legendreSym.eq_one_or_neg_one p0 ?_, fun p hm => ?_⟩
    · rw [Int.cast_natCast, Ne, ZMod.natCast_eq_zero_iff]
      intro hd
      exact absurd (Nat.le_of_dvd ha.pos hd) (by have := hlt p0 hp0; omega)
    · haveI : Fact p.Prime := ⟨hp p hm⟩
      have e8 := h8 p hm
      have e80 := h8 p0 hp0
      have es : legendreSym p0 a = legendreSym p a := by
        by_cases h2 : a = 2
        · subst h2
          exact legendre_two p0 p (by rintro rfl; omega) (by rintro rfl; omega) (by omega)
        · rw [legendre_odd p0 a h2 (by omega) (h1 h2 p0 hp0), legendre_odd p a h2 (by omega) (h1 h2 p hm)]
      have hdiv : p / 2 ∣ d := by
        have hdn : p / 2 ∣ n - 1 := by
          refine Dvd.dvd.trans ?_ (?_ : (p - 1) ∣ n - 1)
          · exact ⟨2, by omega⟩
          · have := hc p hm
            exact ⟨n / (p - 1), by have := Nat.mod_add_div n (p - 1); omega⟩
        rw [hnd] at hdn
        refine Nat.Coprime.dvd_of_dvd_mul_left ?_ hdn
        refine Nat.Coprime.pow_right _ (Nat.coprime_comm.mp ?_)
        rw [Nat.coprime_two_left, Nat.odd_iff]
        omega
      obtain ⟨c, hcc⟩ := hdiv
      have hodd : c % 2 = 1 := by
        rw [hcc] at hd
        exact Nat.odd_iff.mp (Nat.odd_mul.mp hd).2
      rw [es, hcc]
      refine euler_odd p a c (by omega) (fun hd => ?_) hodd
      exact absurd (Nat.le_of_dvd ha.pos hd) (by have := hlt p hm; omega)
  refine ⟨k, d, hnd, Nat.odd_iff.mp hd, ?_⟩
  rcases hs with rfl | rfl
  · left
    have h : ps.prod ∣ a ^ d - 1 := by
      refine prod_dvd_of_primes _ ps hn hp (fun p hm => ?_)
      have := hall p hm
      rw [Int.cast_one, ← Nat.cast_pow, ← Nat.cast_one, ZMod.natCast_eq_natCast_iff] at this
      exact (Nat.modEq_iff_dvd' (Nat.one_le_pow _ _ ha.pos)).mp this
    rw [hN] at h
    exact ((Nat.modEq_iff_dvd' (Nat.one_le_pow _ _ ha.pos)).mpr h).symm
  · right
    refine ⟨0, by omega, ?_⟩
    rw [pow_zero, Nat.one_mul, ← hN, hN]
    have h : ps.prod ∣ a ^ d + 1 := by
      refine prod_dvd_of_primes _ ps hn hp (fun p hm => ?_)
      have := hall p hm
      rw [← ZMod.natCast_eq_zero_iff, Nat.cast_add, Nat.cast_pow, ← this]
      simp
    rw [hN] at h
    exact h

end Verif.Proof
