import Verif.Base.Basic
import Mathlib.Data.Nat.Prime.Basic

/-! "The first `b` bits of the fractional part of the `k`-th root of the `i`-th prime" (FIPS 180-4 sections 4.2 and 5.3). -/

namespace Verif.Spec

/-- Largest `r < start + 2^i` with `r^k ≤ n`, found bit by bit from `start`. -/
def rootAux (k n : Nat) : Nat → Nat → Nat
  | 0, r => r
  | i + 1, r => rootAux k n i (if (r + 2 ^ i) ^ k ≤ n then r + 2 ^ i else r)

/-- Integer `k`-th root of a number below `2^(k*128)`; see `root_spec`. -/
def root (k n : Nat) : Nat := rootAux k n 128 0

theorem rootAux_spec {k n : Nat} : ∀ (i r : Nat), r ^ k ≤ n → n < (r + 2 ^ i) ^ k →
    (rootAux k n i r) ^ k ≤ n ∧ n < (rootAux k n i r + 1) ^ k
  | 0, r, h1, h2 => ⟨h1, by simpa [rootAux] using h2⟩
  | i + 1, r, h1, h2 => by
      unfold rootAux
      split
      · rename_i h
        exact rootAux_spec i _ h (by rw [add_assoc, ← two_mul, ← pow_succ']; exact h2)
      · rename_i h
        exact rootAux_spec i _ h1 (by omega)

/-- `root` is the integer root: the definition means what it says. -/
theorem root_spec {k n : Nat} (hk : 0 < k) (hn : n < (2 ^ 128) ^ k) :
    (root k n) ^ k ≤ n ∧ n < (root k n + 1) ^ k :=
  rootAux_spec 128 0 (by rw [zero_pow (by omega)]; omega) (by simpa using hn)

/-- First `b` bits of the fractional part of the `k`-th root of `p`: `⌊2^b · p^(1/k)⌋ mod 2^b`. -/
def fracRoot (k b p : Nat) : Nat := root k (p * 2 ^ (k * b)) % 2 ^ b

/-- Primality by trial division, for the short list of primes below. -/
def isPrime (p : Nat) : Bool := 2 ≤ p && (List.range p).all (fun d => d < 2 || p % d != 0)

theorem isPrime_iff (p : Nat) : isPrime p = true ↔ Nat.Prime p := by
  rw [Nat.prime_def]
  simp only [isPrime, Bool.and_eq_true, decide_eq_true_eq, List.all_eq_true, List.mem_range, Bool.or_eq_true, bne_iff_ne]
  constructor
  · rintro ⟨h2, h⟩
    refine ⟨h2, fun m hm => ?_⟩
    have hm0 : m ≠ 0 := by rintro rfl; rw [zero_dvd_iff] at hm; omega
    have hle := Nat.le_of_dvd (by omega) hm
    by_cases hp : m = p
    · exact Or.inr hp
    · rcases h m (by omega) with h | h
      · left; omega
      · exact absurd (Nat.mod_eq_zero_of_dvd hm) h
  · rintro ⟨h2, h⟩
    refine ⟨h2, fun d hd => ?_⟩
    by_cases hd2 : d < 2
    · exact Or.inl hd2
    · refine Or.inr fun h0 => ?_
      rcases h d (Nat.dvd_of_mod_eq_zero h0) with h | h <;> omega

/-- The primes below 410 in increasing order: the first 80 primes. -/
def primes80 : List Nat := (List.range 410).filter isPrime

end Verif.Spec
