import Verif.Proof.Keccak
import Mathlib.Tactic.IntervalCases

/-! The step mappings of Keccak are injective. -/

namespace Verif.Proof.KeccakInj
open Verif.Model Verif.Spec

/-- The same array. -/
def Same (A B : Keccak.StateArray) : Prop := ∀ x < 5, ∀ y < 5, ∀ z < 64, A x y z = B x y z

/-- The difference of the column parities, as a function on all numbers. -/
def parity (A B : Keccak.StateArray) (x z : Nat) : Bool :=
  (A (x % 5) 0 (z % 64) ^^ A (x % 5) 1 (z % 64) ^^ A (x % 5) 2 (z % 64) ^^ A (x % 5) 3 (z % 64) ^^ A (x % 5) 4 (z % 64)) ^^
  (B (x % 5) 0 (z % 64) ^^ B (x % 5) 1 (z % 64) ^^ B (x % 5) 2 (z % 64) ^^ B (x % 5) 3 (z % 64) ^^ B (x % 5) 4 (z % 64))

theorem xor_solve : ∀ a b p q r s : Bool, (a ^^ (p ^^ q)) = (b ^^ (r ^^ s)) → (a ^^ b) = ((p ^^ r) ^^ (q ^^ s)) := by decide

theorem difference {A B : Keccak.StateArray} (h : Same (Keccak.theta A) (Keccak.theta B)) (x y z : Nat) (hx : x < 5) (hy : y < 5) (hz : z < 64) :
    (A x y z ^^ B x y z) = (parity A B (x + 4) z ^^ parity A B (x + 1) (z + 63)) := by
  have h1 := h x hx y hy z hz
  simp only [Keccak.theta] at h1
  have h2 := xor_solve _ _ _ _ _ _ h1
  rw [h2, parity, parity, Nat.mod_eq_of_lt hz]

theorem xor_five : ∀ a b c d e a' b' c' d' e' t : Bool, (a ^^ a') = t → (b ^^ b') = t → (c ^^ c') = t → (d ^^ d') = t → (e ^^ e') = t →
    ((a ^^ b ^^ c ^^ d ^^ e) ^^ (a' ^^ b' ^^ c' ^^ d' ^^ e')) = t := by decide

/-- The parity differences satisfy the recurrence of the map itself. -/
theorem parity_step {A B : Keccak.StateArray} (h : Same (Keccak.theta A) (Keccak.theta B)) (x z : Nat) :
    parity A B x z = (parity A B (x + 4) z ^^ parity A B (x + 1) (z + 63)) := by
  have hx : x % 5 < 5 := Nat.mod_lt _ (by omega)
  have hz : z % 64 < 64 := Nat.mod_lt _ (by omega)
  have d := fun y hy => difference h (x % 5) y (z % 64) hx hy hz
  have e1 : parity A B (x % 5 + 4) (z % 64) = parity A B (x + 4) z := by
    unfold parity
    rw [show (x % 5 + 4) % 5 = (x + 4) % 5 by omega, Nat.mod_mod]
  have e2 : parity A B (x % 5 + 1) (z % 64 + 63) = parity A B (x + 1) (z + 63) := by
    unfold parity
    rw [show (x % 5 + 1) % 5 = (x + 1) % 5 by omega, show (z % 64 + 63) % 64 = (z + 63) % 64 by omega]
  rw [e1, e2] at d
  rw [show parity A B x z = _ from xor_five _ _ _ _ _ _ _ _ _ _ _ (d 0 (by omega)) (d 1 (by omega)) (d 2 (by omega)) (d 3 (by omega)) (d 4 (by omega))]

theorem xor_cancel : ∀ a b c d e : Bool, a = (b ^^ c) → b = (d ^^ e) → ∀ f, c = (e ^^ f) → a = (d ^^ f) := by decide

theorem parity_pow {A B : Keccak.StateArray} (h : Same (Keccak.theta A) (Keccak.theta B)) : ∀ (k x z : Nat),
    parity A B x z = (parity A B (x + 4 * 2 ^ k) z ^^ parity A B (x + 2 ^ k) (z + 63 * 2 ^ k))
  | 0, x, z => by simpa using parity_step h x z
  | k + 1, x, z => by
    have h1 := parity_pow h k x z
    have h2 := parity_pow h k (x + 4 * 2 ^ k) z
    have h3 := parity_pow h k (x + 2 ^ k) (z + 63 * 2 ^ k)
    rw [show x + 4 * 2 ^ k + 4 * 2 ^ k = x + 4 * 2 ^ (k + 1) by rw [pow_succ]; omega,
      show x + 4 * 2 ^ k + 2 ^ k = x + 5 * 2 ^ k by omega] at h2
    rw [show x + 2 ^ k + 4 * 2 ^ k = x + 5 * 2 ^ k by omega, show x + 2 ^ k + 2 ^ k = x + 2 ^ (k + 1) by rw [pow_succ]; omega,
      show z + 63 * 2 ^ k + 63 * 2 ^ k = z + 63 * 2 ^ (k + 1) by rw [pow_succ]; omega] at h3
    exact xor_cancel _ _ _ _ _ h1 h2 _ h3

theorem five_zero : ∀ a b c d e : Bool, a = (b ^^ e) → b = (c ^^ a) → c = (d ^^ b) → d = (e ^^ c) → e = (a ^^ d) →
    a = false ∧ b = false ∧ c = false ∧ d = false ∧ e = false := by decide

theorem parity_zero {A B : Keccak.StateArray} (h : Same (Keccak.theta A) (Keccak.theta B)) (x z : Nat) : parity A B x z = false := by
  have key : ∀ x, parity A B x z = (parity A B (x + 1) z ^^ parity A B (x + 4) z) := by
    intro x
    have h6 := parity_pow h 6 x z
    rw [h6]
    unfold parity
    rw [show (x + 4 * 2 ^ 6) % 5 = (x + 1) % 5 by omega, show (x + 2 ^ 6) % 5 = (x + 4) % 5 by omega, show (z + 63 * 2 ^ 6) % 64 = z % 64 by omega]
  have per : ∀ x y, x % 5 = y % 5 → parity A B x z = parity A B y z := by
    intro x y e
    unfold parity
    rw [e]
  obtain ⟨a, b, c, d, e⟩ := five_zero (parity A B 0 z) (parity A B 1 z) (parity A B 2 z) (parity A B 3 z) (parity A B 4 z) (key 0)
    ((key 1).trans (by rw [per (1 + 4) 0 (by omega)])) ((key 2).trans (by rw [per (2 + 4) 1 (by omega)])) ((key 3).trans (by rw [per (3 + 4) 2 (by omega)]))
    ((key 4).trans (by rw [per (4 + 1) 0 (by omega), per (4 + 4) 3 (by omega)]))
  rw [per x (x % 5) (by omega)]
  have : x % 5 < 5 := Nat.mod_lt _ (by omega)
  generalize x % 5 = r at this ⊢
  interval_cases r <;> assumption

theorem theta_inj {A B : Keccak.StateArray} (h : Same (Keccak.theta A) (Keccak.theta B)) : Same A B := by
  intro x hx y hy z hz
  have := difference h x y z hx hy hz
  rw [parity_zero h, parity_zero h] at this
  revert this
  generalize A x y z = a
  generalize B x y z = b
  revert a b
  decide

theorem rho_inj {A B : Keccak.StateArray} (h : Same (Keccak.rho A) (Keccak.rho B)) : Same A B := by
  intro x hx y hy z hz
  have := h x hx y hy ((z + Keccak.rhoOffset x y % 64) % 64) (Nat.mod_lt _ (by omega))
  simp only [Keccak.rho] at this
  have hr : Keccak.rhoOffset x y % 64 < 64 := Nat.mod_lt _ (by omega)
  rwa [show ((z + Keccak.rhoOffset x y % 64) % 64 + (64 - Keccak.rhoOffset x y % 64)) % 64 = z by omega] at this

theorem pi_inj {A B : Keccak.StateArray} (h : Same (Keccak.pi A) (Keccak.pi B)) : Same A B := by
  intro x hx y hy z hz
  have := h y hy ((2 * x + 3 * y) % 5) (Nat.mod_lt _ (by omega)) z hz
  simp only [Keccak.pi] at this
  rwa [show (y + 3 * ((2 * x + 3 * y) % 5)) % 5 = x by omega] at this

theorem chi_row : ∀ a b c d e a' b' c' d' e' : Bool, (a ^^ ((b ^^ true) && c)) = (a' ^^ ((b' ^^ true) && c')) → (b ^^ ((c ^^ true) && d)) = (b' ^^ ((c' ^^ true) && d')) →
    (c ^^ ((d ^^ true) && e)) = (c' ^^ ((d' ^^ true) && e')) → (d ^^ ((e ^^ true) && a)) = (d' ^^ ((e' ^^ true) && a')) →
    (e ^^ ((a ^^ true) && b)) = (e' ^^ ((a' ^^ true) && b')) → a = a' ∧ b = b' ∧ c = c' ∧ d = d' ∧ e = e' := by decide +kernel

theorem chi_inj {A B : Keccak.StateArray} (h : Same (Keccak.chi A) (Keccak.chi B)) : Same A B := by
  intro x hx y hy z hz
  have k := fun x hx => h x hx y hy z hz
  simp only [Keccak.chi] at k
  obtain ⟨a, b, c, d, e⟩ := chi_row _ _ _ _ _ _ _ _ _ _ (k 0 (by omega)) (k 1 (by omega)) (k 2 (by omega)) (k 3 (by omega)) (k 4 (by omega))
  interval_cases x <;> assumption

theorem iota_inj {A B : Keccak.StateArray} (ir : Nat) (h : Same (Keccak.iota ir A) (Keccak.iota ir B)) : Same A B := by
  intro x hx y hy z hz
  have := h x hx y hy z hz
  simp only [Keccak.iota] at this
  split at this
  · exact Bool.xor_left_inj.mp this
  · exact this

theorem rnd_inj {A B : Keccak.StateArray} (ir : Nat) (h : Same (Keccak.Rnd A ir) (Keccak.Rnd B ir)) : Same A B :=
  theta_inj (rho_inj (pi_inj (chi_inj (iota_inj ir h))))

theorem rounds_inj : ∀ (l : List Nat) {A B : Keccak.StateArray}, Same (l.foldl Keccak.Rnd A) (l.foldl Keccak.Rnd B) → Same A B
  | [], _, _, h => h
  | r :: l, _, _, h => rnd_inj r (rounds_inj l h)

end Verif.Proof.KeccakInj
