import Verif.Props.Prime

/-! C94: the prime test is exact below 7927². -/

namespace Verif.Props
open Verif.Model Verif.Proof Verif.Spec

theorem no_prime_between : ∀ q, 7920 ≤ q → q < 7927 → ¬ q.Prime := by
  intro q h1 h2 hp
  obtain rfl | rfl | rfl | rfl | rfl | rfl | rfl : q = 7920 ∨ q = 7921 ∨ q = 7922 ∨ q = 7923 ∨ q = 7924 ∨ q = 7925 ∨ q = 7926 := by omega
  all_goals revert hp; norm_num

/-- C94 in full: only primes are accepted. -/
def C94_claim : Prop := ∀ (w : Nat) (num : List U32), 0 < w → num.length = w → mrPrime (32 * w) num = .ok true → (value num).Prime

/-- C94 below 62837329 = 7927²: there the test says exactly what is prime, at every width. Missing: larger numbers. -/
theorem C94_partial (w : Nat) (hw : 0 < w) (num : List U32) (hl : num.length = w) (h : value num < 7927 * 7927) :
    ∃ b, mrPrime (32 * w) num = .ok b ∧ (b = true ↔ (value num).Prime) := by
  rcases Nat.lt_or_ge (value num) 7920 with h0 | h0
  · exact C39_small (32 * w) (by omega) num (by rw [hl, wordCount]; omega) h0
  · obtain ⟨b, e, -, hb⟩ := C41_accepted w hw num hl h0
    refine ⟨b, e, fun ht => ?_, fun hp => ?_⟩
    · by_contra hn
      have hne : value num ≠ 1 := by omega
      have hq := Nat.minFac_prime hne
      have hge := hb ht _ hq (Nat.minFac_dvd _)
      have hge' : 7927 ≤ (value num).minFac := by
        by_contra hc
        exact no_prime_between _ hge (by omega) hq
      have hsq := Nat.minFac_sq_le_self (by omega) hn
      have : 7927 * 7927 ≤ (value num).minFac ^ 2 := by rw [pow_two]; exact Nat.mul_le_mul hge' hge'
      omega
    · have := C40_primes_pass w hw num hl hp
      rw [this] at e
      injection e with e
      exact e.symm

example : ([62837328#32, 0#32] : List U32).length = 2 ∧ value [62837328#32, 0#32] < 7927 * 7927 := by decide
example : mrPrime 32 [62837329#32] = .ok false := by decide +kernel
end Verif.Props
