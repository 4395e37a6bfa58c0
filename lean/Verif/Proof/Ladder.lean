import Verif.Proof.Curve
import Mathlib.Algebra.Field.ZMod
import Mathlib.FieldTheory.IsAlgClosed.AlgebraicClosure
import Mathlib.Data.Nat.Bitwise

/-! The ladder computes the x-coordinate of a multiple. -/

namespace Verif.Proof
open Verif.Spec

/-- The four coordinates of the ladder, not swapped. -/
structure Lad (F : Type) where
  x2 : F
  z2 : F
  x3 : F
  z3 : F

/-- One step with the bit `b`. -/
def lstep {F : Type} [Field F] (a24 u : F) (b : Bool) (s : Lad F) : Lad F :=
  if b then ⟨(xAdd u s.x3 s.z3 s.x2 s.z2).1, (xAdd u s.x3 s.z3 s.x2 s.z2).2, (xDbl a24 s.x3 s.z3).1, (xDbl a24 s.x3 s.z3).2⟩
  else ⟨(xDbl a24 s.x2 s.z2).1, (xDbl a24 s.x2 s.z2).2, (xAdd u s.x2 s.z2 s.x3 s.z3).1, (xAdd u s.x2 s.z2 s.x3 s.z3).2⟩

/-- The first `i` steps of a ladder for an `N`-bit number `k`. -/
def lad {F : Type} [Field F] (a24 u : F) (N k : Nat) : Nat → Lad F
  | 0 => ⟨1, 0, u, 1⟩
  | i + 1 => lstep a24 u (k.testBit (N - 1 - i)) (lad a24 u N k i)

theorem shift_step (k j : Nat) : k / 2 ^ j = 2 * (k / 2 ^ (j + 1)) + (if k.testBit j then 1 else 0) := by
  rw [pow_succ, ← Nat.div_div_eq_div_mul, Nat.testBit_eq_decide_div_mod_eq]
  generalize k / 2 ^ j = q
  rcases Nat.mod_two_eq_zero_or_one q with h | h <;> simp [h] <;> omega

theorem lad_rep {F : Type} [Field F] [DecidableEq F] {A a24 u : F} (h2 : (2 : F) ≠ 0) (hA : A ^ 2 - 4 ≠ 0) (ha : 4 * a24 = A - 2)
    (hu : u ≠ 0) {P : (montCurve A).Point} (hP : Rep u 1 P) (N k : Nat) (hk : k < 2 ^ N) (i : Nat) (hi : i ≤ N) :
    Rep (lad a24 u N k i).x2 (lad a24 u N k i).z2 ((k / 2 ^ (N - i)) • P) ∧
    Rep (lad a24 u N k i).x3 (lad a24 u N k i).z3 ((k / 2 ^ (N - i) + 1) • P) := by
  have hPn : Rep u 1 (-P) := by
    cases P with
    | zero => exact hP
    | some X Y _ => exact hP
  induction i with
  | zero =>
    rw [Nat.sub_zero, Nat.div_eq_of_lt hk, zero_smul, zero_add, one_smul]
    exact ⟨⟨rfl, one_ne_zero⟩, hP⟩
  | succ i ih =>
    obtain ⟨r2, r3⟩ := ih (by omega)
    have e : N - i = (N - (i + 1)) + 1 := by omega
    rw [shift_step k (N - (i + 1)), ← e]
    have e1 : N - 1 - i = N - (i + 1) := by omega
    rw [lad, e1]
    generalize k / 2 ^ (N - i) = m at r2 r3 ⊢
    generalize lad a24 u N k i = s at r2 r3 ⊢
    cases hb : k.testBit (N - (i + 1))
    · simp only [lstep, Bool.false_eq_true, if_false, add_zero]
      constructor
      · have := rep_dbl h2 hA ha r2
        rwa [← add_smul, ← two_mul] at this
      · have hd : (m + 1) • P - m • P = P := by rw [add_smul, one_smul]; abel
        have := rep_add h2 hA ha r2 r3 hu (by rw [hd]; exact hP)
        rwa [← add_smul, show m + (m + 1) = 2 * m + 1 by ring] at this
    · simp only [lstep, if_true]
      constructor
      · have hd : m • P - (m + 1) • P = -P := by rw [add_smul, one_smul]; abel
        have := rep_add h2 hA ha r3 r2 hu (by rw [hd]; exact hPn)
        rwa [← add_smul, show m + 1 + m = 2 * m + 1 by ring] at this
      · have := rep_dbl h2 hA ha r3
        rwa [← add_smul, show m + 1 + (m + 1) = 2 * m + 1 + 1 by ring] at this

theorem rep_div {F : Type} [Field F] {W : WeierstrassCurve.Affine F} {x z : F} {Q : W.Point} (h : Rep x z Q) : x / z = uCoord Q := by
  cases Q with
  | zero => rw [h.1, div_zero]; rfl
  | some X Y _ => rw [h.2, mul_div_cancel_right₀ _ h.1]; rfl

/-- The ladder computes the x-coordinate of `k P`. -/
theorem lad_uCoord {F : Type} [Field F] [DecidableEq F] {A a24 u : F} (h2 : (2 : F) ≠ 0) (hA : A ^ 2 - 4 ≠ 0) (ha : 4 * a24 = A - 2)
    (hu : u ≠ 0) {P : (montCurve A).Point} (hP : Rep u 1 P) (N k : Nat) (hk : k < 2 ^ N) :
    (lad a24 u N k N).x2 / (lad a24 u N k N).z2 = uCoord (k • P) := by
  have := (lad_rep h2 hA ha hu hP N k hk N (le_refl N)).1
  rw [Nat.sub_self, pow_zero, Nat.div_one] at this
  exact rep_div this

/-- For `u = 0` an even multiple is the neutral element. -/
theorem lad_zero {F : Type} [Field F] (a24 : F) (N k : Nat) (hN : 0 < N) (hk : k % 2 = 0) : (lad a24 0 N k N).z2 = 0 := by
  have inv : ∀ i, ((lad a24 0 N k i).z2 = 0 ∧ (lad a24 0 N k i).x3 = 0) ∨ ((lad a24 0 N k i).x2 = 0 ∧ (lad a24 0 N k i).z3 = 0) := by
    intro i
    induction i with
    | zero => exact .inl ⟨rfl, rfl⟩
    | succ i ih =>
      rw [lad]
      generalize lad a24 0 N k i = s at ih ⊢
      cases k.testBit (N - 1 - i)
      · left
        simp only [lstep, Bool.false_eq_true, if_false, xDbl, xAdd]
        rcases ih with ⟨h1, h2⟩ | ⟨h1, h2⟩ <;> rw [h1, h2] <;> constructor <;> ring
      · right
        simp only [lstep, if_true, xDbl, xAdd]
        rcases ih with ⟨h1, h2⟩ | ⟨h1, h2⟩ <;> rw [h1, h2] <;> constructor <;> ring
  obtain ⟨i, rfl⟩ : ∃ i, N = i + 1 := ⟨N - 1, by omega⟩
  have ih := inv i
  rw [lad, show i + 1 - 1 - i = 0 by omega]
  have hb : k.testBit 0 = false := by rw [Nat.testBit_zero]; simp [hk]
  rw [hb]
  generalize lad a24 0 (i + 1) k i = s at ih ⊢
  simp only [lstep, Bool.false_eq_true, if_false, xDbl]
  rcases ih with ⟨h1, h2⟩ | ⟨h1, h2⟩ <;> rw [h1] <;> ring

/-- Ring homomorphisms commute with the ladder. -/
theorem lad_map {F K : Type} [Field F] [Field K] (f : F →+* K) (a24 u : F) (N k i : Nat) :
    (lad (f a24) (f u) N k i).x2 = f (lad a24 u N k i).x2 ∧ (lad (f a24) (f u) N k i).z2 = f (lad a24 u N k i).z2 ∧
    (lad (f a24) (f u) N k i).x3 = f (lad a24 u N k i).x3 ∧ (lad (f a24) (f u) N k i).z3 = f (lad a24 u N k i).z3 := by
  induction i with
  | zero => simp [lad]
  | succ i ih =>
    obtain ⟨h1, h2, h3, h4⟩ := ih
    rw [lad, lad]
    cases k.testBit (N - 1 - i) <;> simp only [lstep, Bool.false_eq_true, if_false, if_true, xDbl, xAdd, h1, h2, h3, h4] <;>
      refine ⟨?_, ?_, ?_, ?_⟩ <;> simp

end Verif.Proof
