import Verif.Proof.BigPrimes
import Verif.Proof.Pseudoprime
import Verif.Props.PrimeExact
import Verif.Props.RsaRaw

/-! C94: a number that the prime test accepts although it is not prime. -/

namespace Verif.Props
open Verif.Model Verif.Proof Verif.Spec

/-- The number: a product of primes of 11000 bits each. -/
def wrongNumber : Nat := (wrongKs.map bigPrime).prod

/-- The primes below 7920 that do not divide the predecessors of the factors. -/
def otherPrimes : List Nat := [3, 5, 7, 11, 13, 17, 19, 23, 29, 31, 37]

theorem wrong_rest : ∀ k ∈ wrongKs, (bigPrime k % 8 = bigPrime 1 % 8 ∧ wrongNumber % (bigPrime k - 1) = 1 ∧ 0 < k) ∧
    ∀ a ∈ otherPrimes, ∃ y, y < a ∧ bigPrime k % a = y * y % a ∧ y % a ≠ 0 := by
  decide +kernel

theorem wrong_odd : wrongNumber % 2 = 1 := by decide +kernel

theorem wrong_nodup : wrongKs.Nodup ∧ bigPrime 1 % 4 = 3 ∧ bigPrime 1 % 8 % 4 = 3 ∧ 1 < wrongKs.length := by decide +kernel

theorem big_divisors : ∀ a ∈ primeTable, a ∈ otherPrimes ∨ bigF * bigR % a = 0 := by decide +kernel

theorem bigR_large : 7920 < bigR := by decide +kernel

theorem bigPrime_inj {a b : Nat} (h : bigPrime a = bigPrime b) : a = b := by
  rw [bigPrime, bigPrime] at h
  have h1 := Nat.eq_of_mul_eq_mul_left bigF_pos (Nat.add_right_cancel h)
  exact Nat.eq_of_mul_eq_mul_right (by have := bigR_large; omega) h1

theorem bigPrime_large {k : Nat} (hk : 0 < k) : 7920 < bigPrime k := by
  have h1 : 1 * (1 * bigR) ≤ bigF * (k * bigR) := Nat.mul_le_mul bigF_pos (Nat.mul_le_mul_right _ hk)
  have := bigR_large
  rw [bigPrime]; omega

theorem wrong_large : 7920 ≤ wrongNumber := by decide +kernel

theorem wrong_sprp (a : Nat) (ha : a.Prime) (hlt : a < 7920) : StrongProbablePrime wrongNumber a := by
  refine sprp_of_factors (wrongKs.map bigPrime) ?_ ?_ ?_ (bigPrime 1 % 8) wrong_nodup.2.2.1 ?_ wrong_odd ?_ ?_ a ha ?_ ?_
  · intro h
    have := congrArg List.length h
    rw [List.length_map] at this
    have h2 := wrong_nodup.2.2.2
    rw [this] at h2
    exact absurd h2 (by decide)
  · exact (List.nodup_map_iff (fun _ _ h => bigPrime_inj h)).mpr wrong_nodup.1
  · intro p hp
    obtain ⟨k, hk, rfl⟩ := List.mem_map.mp hp
    exact wrong_primes k hk
  · intro p hp
    obtain ⟨k, hk, rfl⟩ := List.mem_map.mp hp
    exact (wrong_rest k hk).1.1
  · exact lt_of_lt_of_le (by decide) wrong_large
  · intro p hp
    obtain ⟨k, hk, rfl⟩ := List.mem_map.mp hp
    exact (wrong_rest k hk).1.2.1
  · intro h2 p hp
    obtain ⟨k, hk, rfl⟩ := List.mem_map.mp hp
    rcases big_divisors a ((table_iff hlt).mpr ha) with h | h
    · obtain ⟨y, _, h3⟩ := (wrong_rest k hk).2 a h
      exact ⟨y, h3⟩
    · refine ⟨1, ?_, by rw [Nat.mod_eq_of_lt ha.one_lt]; decide⟩
      rw [bigPrime, show bigF * (k * bigR) = bigF * bigR * k by ring, Nat.add_mod, Nat.mul_mod, h, Nat.zero_mul, Nat.zero_mod, Nat.zero_add, Nat.mod_mod]
  · intro p hp
    obtain ⟨k, hk, rfl⟩ := List.mem_map.mp hp
    exact hlt.trans (bigPrime_large (wrong_rest k hk).1.2.2)

theorem wrong_composite : ¬ wrongNumber.Prime := by
  intro hp
  obtain ⟨h1, _, _, h2⟩ := wrong_nodup
  have key : ∀ (l : List Nat), 1 < l.length → (∀ p ∈ l, 1 < p) → ¬ l.prod.Prime := by
    intro l hl h hp
    obtain ⟨a, b, l, rfl⟩ : ∃ a b l', l = a :: b :: l' := by
      match l, hl with
      | a :: b :: l', _ => exact ⟨a, b, l', rfl⟩
    rw [List.prod_cons] at hp
    have ha := h a (by simp)
    have hb := h b (by simp)
    have hl0 : 0 < l.prod := List.prod_pos (fun q hq => by have := h q (by simp [hq]); omega)
    have h3 : 1 < (b :: l).prod := by
      rw [List.prod_cons]
      exact lt_of_lt_of_le hb (Nat.le_mul_of_pos_right _ hl0)
    exact Nat.not_prime_mul (by omega) (by omega) hp
  refine key _ (by rw [List.length_map]; exact h2) (fun p hp => ?_) hp
  obtain ⟨k, hk, rfl⟩ := List.mem_map.mp hp
  have := bigPrime_large (wrong_rest k hk).1.2.2
  omega

/-- C94 is false: at every width that holds it, the test accepts `wrongNumber`, the product of primes of 11000 bits. -/
theorem C94_wrong (w : Nat) (num : List U32) (hl : num.length = w) (hv : value num = wrongNumber) : mrPrime (32 * w) num = .ok true ∧ ¬ (value num).Prime := by
  have hbig : 7920 ≤ wrongNumber := wrong_large
  have hw : 0 < w := by
    rcases Nat.eq_zero_or_pos w with h | h
    · rw [h] at hl
      rw [List.length_eq_zero_iff.mp hl, value] at hv
      omega
    · exact h
  obtain ⟨b, e, hb, _⟩ := C41_accepted w hw num hl (by omega)
  have : b = true := hb.mpr (by rw [hv]; exact ⟨wrong_odd, fun a ha hlt => wrong_sprp a ha hlt⟩)
  rw [this] at e
  exact ⟨e, by rw [hv]; exact wrong_composite⟩

theorem wrong_bits : 2 ^ 586782 ≤ wrongNumber ∧ wrongNumber < 2 ^ 586783 := by decide +kernel

/-- The hypotheses of `C94_wrong` are met: the number has 586783 bits and fits into 18337 words. -/
example : ∃ num : List U32, num.length = 18337 ∧ value num = wrongNumber :=
  exists_words 18337 wrongNumber (wrong_bits.2.trans_le (Nat.pow_le_pow_right (by decide) (by decide)))

/-- C94: the claim that only primes are accepted does not hold. -/
theorem C94_false : ¬ C94_claim := by
  intro h
  obtain ⟨w, hw⟩ : ∃ w, wrongNumber < 2 ^ (32 * w) := ⟨wrongNumber, lt_of_lt_of_le Nat.lt_two_pow_self (Nat.pow_le_pow_right (by decide) (by omega))⟩
  obtain ⟨num, hl, hv⟩ := exists_words w wrongNumber hw
  obtain ⟨e, hn⟩ := C94_wrong w num hl hv
  refine hn (h w num ?_ hl e)
  rcases Nat.eq_zero_or_pos w with h0 | h0
  · rw [h0, Nat.mul_zero, pow_zero] at hw
    have := wrong_large
    omega
  · exact h0

end Verif.Props
