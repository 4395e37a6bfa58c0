import Verif.Spec.X25519
import Mathlib.Tactic.LinearCombination
import Mathlib.Tactic.FieldSimp

/-! The Montgomery ladder on a curve `y^2 = x^3 + A x^2 + x`. -/

namespace Verif.Proof
open Verif.Spec

/-- Montgomery curve with coefficient `A` -/
def montCurve {F : Type} [Field F] (A : F) : WeierstrassCurve.Affine F := { a₁ := 0, a₂ := A, a₃ := 0, a₄ := 1, a₆ := 0 }

/-- x-coordinates of the double of the point `(x : z)` -/
def xDbl {F : Type} [Field F] (a24 x z : F) : F × F :=
  ((x + z) ^ 2 * (x - z) ^ 2, ((x + z) ^ 2 - (x - z) ^ 2) * ((x + z) ^ 2 + a24 * ((x + z) ^ 2 - (x - z) ^ 2)))

/-- x-coordinates of the sum of points whose difference has x-coordinate `u` -/
def xAdd {F : Type} [Field F] (u x2 z2 x3 z3 : F) : F × F :=
  (((x3 - z3) * (x2 + z2) + (x3 + z3) * (x2 - z2)) ^ 2, u * ((x3 - z3) * (x2 + z2) - (x3 + z3) * (x2 - z2)) ^ 2)

section
variable {F : Type} [Field F] [DecidableEq F] {A : F}

/-- `(x : z)` represents the x-coordinate of `P` -/
def Rep {W : WeierstrassCurve.Affine F} (x z : F) : W.Point → Prop
  | .zero => z = 0 ∧ x ≠ 0
  | .some X _ _ => z ≠ 0 ∧ x = X * z

omit [DecidableEq F] in
theorem equation_mont (x y : F) : (montCurve A).Equation x y ↔ y ^ 2 = x ^ 3 + A * x ^ 2 + x := by
  rw [WeierstrassCurve.Affine.equation_iff]
  simp [montCurve]

omit [DecidableEq F] in
theorem nonsingular_mont (h2 : (2 : F) ≠ 0) (hA : A ^ 2 - 4 ≠ 0) (x y : F) (h : y ^ 2 = x ^ 3 + A * x ^ 2 + x) : (montCurve A).Nonsingular x y := by
  rw [WeierstrassCurve.Affine.nonsingular_iff, equation_mont]
  refine ⟨h, ?_⟩
  simp only [montCurve, zero_mul, add_zero, sub_zero, mul_zero, zero_sub]
  by_contra hc
  push Not at hc
  obtain ⟨h3, h4⟩ := hc
  have hy : y = 0 := by
    have : (2 : F) * y = 0 := by linear_combination h4
    exact (mul_eq_zero.mp this).resolve_left h2
  rw [hy] at h
  apply hA
  have hx : x ≠ 0 := by
    intro hx; rw [hx] at h3; simp at h3
  have h5 : x ^ 2 + A * x + 1 = 0 := by
    have : x * (x ^ 2 + A * x + 1) = 0 := by linear_combination -h
    exact (mul_eq_zero.mp this).resolve_left hx
  linear_combination (A ^ 2 + (A * x - 2)) * h3 + (3 * (A * x - 2) + 2 * A ^ 2) * h5

omit [DecidableEq F] in
/-- At a point of order two the x-coordinate is not `1` or `-1`. -/
theorem two_torsion (hA : A ^ 2 - 4 ≠ 0) {x : F} (h : x ^ 3 + A * x ^ 2 + x = 0) : x ^ 2 - 1 ≠ 0 := by
  intro hS
  have hx : x ≠ 0 := by
    intro hx; rw [hx] at hS; simp at hS
  have h5 : x ^ 2 + A * x + 1 = 0 := by
    have : x * (x ^ 2 + A * x + 1) = 0 := by linear_combination h
    exact (mul_eq_zero.mp this).resolve_left hx
  apply hA
  linear_combination (-A ^ 2 - (A * x - 2)) * hS + (A * x - 2) * h5

variable {a24 : F} (h2 : (2 : F) ≠ 0) (hA : A ^ 2 - 4 ≠ 0) (ha : 4 * a24 = A - 2)

omit [DecidableEq F] in
theorem xDbl_eq (ha : 4 * a24 = A - 2) (x z : F) : xDbl a24 x z = ((x ^ 2 - z ^ 2) ^ 2, 4 * x * z * (x ^ 2 + A * x * z + z ^ 2)) := by
  unfold xDbl
  refine Prod.ext ?_ ?_
  · ring
  · show _ = 4 * x * z * (x ^ 2 + A * x * z + z ^ 2)
    linear_combination (4 * x ^ 2 * z ^ 2) * ha

omit [DecidableEq F] in
theorem xAdd_eq (u x2 z2 x3 z3 : F) : xAdd u x2 z2 x3 z3 = (4 * (x2 * x3 - z2 * z3) ^ 2, 4 * u * (x3 * z2 - x2 * z3) ^ 2) := by
  unfold xAdd
  exact Prod.ext (by ring) (by ring)

include h2 hA ha in
theorem rep_dbl {x z : F} {Q : (montCurve A).Point} (h : Rep x z Q) : Rep (xDbl a24 x z).1 (xDbl a24 x z).2 (Q + Q) := by
  have h4 : (4 : F) ≠ 0 := by
    have : (4 : F) = 2 * 2 := by norm_num
    rw [this]; exact mul_ne_zero h2 h2
  rw [xDbl_eq ha]
  cases Q with
  | zero =>
    obtain ⟨hz, hx⟩ := h
    show Rep _ _ ((0 : (montCurve A).Point) + 0)
    rw [add_zero]
    show _ ∧ _
    rw [hz]
    refine ⟨by ring, ?_⟩
    have : (x ^ 2 - 0 ^ 2) ^ 2 = x ^ 4 := by ring
    rw [this]; exact pow_ne_zero _ hx
  | some X Y hns =>
    obtain ⟨hz, hx⟩ := h
    have he : Y ^ 2 = X ^ 3 + A * X ^ 2 + X := (equation_mont X Y).mp hns.1
    have hneg : (montCurve A).negY X Y = -Y := by simp [WeierstrassCurve.Affine.negY, montCurve]
    by_cases hY : Y = 0
    · rw [WeierstrassCurve.Affine.Point.add_self_of_Y_eq (by rw [hneg, hY, neg_zero])]
      show _ ∧ _
      have h0 : X ^ 3 + A * X ^ 2 + X = 0 := by rw [← he, hY]; ring
      constructor
      · rw [hx]; linear_combination (4 * z ^ 4) * h0
      · have hne := two_torsion hA h0
        have : (x ^ 2 - z ^ 2) ^ 2 = (X ^ 2 - 1) ^ 2 * z ^ 4 := by rw [hx]; ring
        rw [this]
        exact mul_ne_zero (pow_ne_zero _ hne) (pow_ne_zero _ hz)
    · have hYY : Y ≠ (montCurve A).negY X Y := by
        rw [hneg]; intro hc
        apply hY
        have : (2 : F) * Y = 0 := by linear_combination hc
        exact (mul_eq_zero.mp this).resolve_left h2
      rw [WeierstrassCurve.Affine.Point.add_self_of_Y_ne hYY]
      have hg : X ^ 3 + A * X ^ 2 + X ≠ 0 := by rw [← he]; exact pow_ne_zero _ hY
      show _ ≠ _ ∧ _
      rw [WeierstrassCurve.Affine.slope_of_Y_ne rfl hYY, hneg]
      constructor
      · have : 4 * x * z * (x ^ 2 + A * x * z + z ^ 2) = 4 * (X ^ 3 + A * X ^ 2 + X) * z ^ 4 := by rw [hx]; ring
        rw [this]
        exact mul_ne_zero (mul_ne_zero h4 hg) (pow_ne_zero _ hz)
      · have e1 : Y - -Y = 2 * Y := by ring
        rw [e1]
        simp only [WeierstrassCurve.Affine.addX, montCurve, zero_mul, add_zero, sub_zero, mul_zero]
        have e2 : 4 * x * z * (x ^ 2 + A * x * z + z ^ 2) = (2 * Y) ^ 2 * z ^ 4 := by rw [hx]; linear_combination (-4 * z ^ 4) * he
        rw [e2]
        have hYn : (2 * Y) ≠ 0 := mul_ne_zero h2 hY
        rw [hx]
        field_simp
        linear_combination (4 * A + 8 * X) * he

include h2 hA ha in
/-- Sum of `Q` and `R` where `R - Q` has x-coordinate `u ≠ 0`. -/
theorem rep_add {x2 z2 x3 z3 u : F} {Q R : (montCurve A).Point} (hQ : Rep x2 z2 Q) (hR : Rep x3 z3 R) (hu : u ≠ 0) (hP : Rep u 1 (R - Q)) :
    Rep (xAdd u x2 z2 x3 z3).1 (xAdd u x2 z2 x3 z3).2 (Q + R) := by
  have h4 : (4 : F) ≠ 0 := by
    have : (4 : F) = 2 * 2 := by norm_num
    rw [this]; exact mul_ne_zero h2 h2
  rw [xAdd_eq]
  -- a point with the same x-coordinate
  have key : ∀ (T : (montCurve A).Point), Rep u 1 T → ∀ {x z : F}, z ≠ 0 → x = u * z → Rep x z T := by
    intro T hT x z hz hx
    cases T with
    | zero => exact absurd hT.1 one_ne_zero
    | some X Y _ =>
      have : u = X * 1 := hT.2
      exact ⟨hz, by rw [hx, this]; ring⟩
  have keyneg : ∀ (T : (montCurve A).Point) {x z : F}, Rep x z T → Rep x z (-T) := by
    intro T x z hT
    cases T with
    | zero => exact hT
    | some X Y _ => exact hT
  cases Q with
  | zero =>
    have e0 : (WeierstrassCurve.Affine.Point.zero : (montCurve A).Point) = 0 := rfl
    rw [e0, sub_zero] at hP
    rw [e0, zero_add]
    obtain ⟨hz2, hx2⟩ := hQ
    cases R with
    | zero => exact absurd hP.1 one_ne_zero
    | some X Y hns =>
      obtain ⟨hz3, hx3⟩ := hR
      have hux : u = X := by have := hP.2; rwa [mul_one] at this
      refine ⟨?_, ?_⟩
      · rw [hx3, hz2, ← hux]
        have : 4 * u * (u * z3 * 0 - x2 * z3) ^ 2 = 4 * u * (x2 * z3) ^ 2 := by ring
        rw [this]
        exact mul_ne_zero (mul_ne_zero h4 hu) (pow_ne_zero _ (mul_ne_zero hx2 hz3))
      · rw [hx3, hz2, ← hux]; ring
  | some X2 Y2 hns2 =>
    obtain ⟨hz2, hx2⟩ := hQ
    cases R with
    | zero =>
      have e0 : (WeierstrassCurve.Affine.Point.zero : (montCurve A).Point) = 0 := rfl
      rw [e0, zero_sub] at hP
      rw [e0, add_zero]
      obtain ⟨hz3, hx3⟩ := hR
      have hux : u = X2 := by have := hP.2; rwa [mul_one] at this
      refine ⟨?_, ?_⟩
      · rw [hx2, hz3, ← hux]
        have : 4 * u * (x3 * z2 - u * z2 * 0) ^ 2 = 4 * u * (x3 * z2) ^ 2 := by ring
        rw [this]
        exact mul_ne_zero (mul_ne_zero h4 hu) (pow_ne_zero _ (mul_ne_zero hx3 hz2))
      · rw [hx2, hz3, ← hux]; ring
    | some X3 Y3 hns3 =>
      obtain ⟨hz3, hx3⟩ := hR
      have he2 : Y2 ^ 2 = X2 ^ 3 + A * X2 ^ 2 + X2 := (equation_mont X2 Y2).mp hns2.1
      have he3 : Y3 ^ 2 = X3 ^ 3 + A * X3 ^ 2 + X3 := (equation_mont X3 Y3).mp hns3.1
      by_cases hX : X2 = X3
      · subst hX
        have hY : Y3 = Y2 ∨ Y3 = -Y2 := by
          have : (Y3 - Y2) * (Y3 + Y2) = 0 := by linear_combination he3 - he2
          rcases mul_eq_zero.mp this with h | h
          · left; linear_combination h
          · right; linear_combination h
        rcases hY with hY | hY
        · subst hY
          rw [sub_self] at hP
          exact absurd hP.1 one_ne_zero
        · subst hY
          have hneg : (WeierstrassCurve.Affine.Point.some X2 (-Y2) hns3 : (montCurve A).Point) = -(WeierstrassCurve.Affine.Point.some X2 Y2 hns2) := by
            rw [WeierstrassCurve.Affine.Point.neg_some]
            congr 1
            simp [WeierstrassCurve.Affine.negY, montCurve]
          rw [hneg] at hP ⊢
          rw [add_neg_cancel]
          have hP2 : Rep u 1 ((WeierstrassCurve.Affine.Point.some X2 Y2 hns2 : (montCurve A).Point) + WeierstrassCurve.Affine.Point.some X2 Y2 hns2) := by
            have := keyneg _ hP
            rw [show -(-(WeierstrassCurve.Affine.Point.some X2 Y2 hns2 : (montCurve A).Point) - WeierstrassCurve.Affine.Point.some X2 Y2 hns2)
              = WeierstrassCurve.Affine.Point.some X2 Y2 hns2 + WeierstrassCurve.Affine.Point.some X2 Y2 hns2 by abel] at this
            exact this
          have hd := rep_dbl h2 hA ha (x := X2) (z := 1) (Q := WeierstrassCurve.Affine.Point.some X2 Y2 hns2) ⟨one_ne_zero, by ring⟩
          rw [xDbl_eq ha] at hd
          refine ⟨by rw [hx2, hx3]; ring, ?_⟩
          have hX1 : X2 ^ 2 - 1 ≠ 0 := by
            intro hc
            generalize (WeierstrassCurve.Affine.Point.some X2 Y2 hns2 : (montCurve A).Point) + WeierstrassCurve.Affine.Point.some X2 Y2 hns2 = T at hd hP2
            cases T with
            | zero => exact absurd hP2.1 one_ne_zero
            | some X Y _ =>
              have e1 : u = X * 1 := hP2.2
              have e2 := hd.2
              have e3 : (X2 ^ 2 - 1 ^ 2) ^ 2 = 0 := by rw [one_pow, hc]; ring
              rw [e3] at e2
              rcases mul_eq_zero.mp e2.symm with h | h
              · exact hu (by rw [e1, h]; ring)
              · exact hd.1 h
          have : 4 * (x2 * x3 - z2 * z3) ^ 2 = 4 * ((X2 ^ 2 - 1) * (z2 * z3)) ^ 2 := by rw [hx2, hx3]; ring
          rw [this]
          exact mul_ne_zero h4 (pow_ne_zero _ (mul_ne_zero hX1 (mul_ne_zero hz2 hz3)))
      · have hXd : X2 - X3 ≠ 0 := sub_ne_zero.mpr hX
        have hXd' : X3 - X2 ≠ 0 := sub_ne_zero.mpr (Ne.symm hX)
        rw [WeierstrassCurve.Affine.Point.add_of_X_ne hX]
        rw [sub_eq_add_neg, WeierstrassCurve.Affine.Point.neg_some, WeierstrassCurve.Affine.Point.add_of_X_ne (Ne.symm hX)] at hP
        have hu' := hP.2
        rw [mul_one, WeierstrassCurve.Affine.slope_of_X_ne (Ne.symm hX)] at hu'
        simp only [WeierstrassCurve.Affine.addX, WeierstrassCurve.Affine.negY, montCurve, zero_mul, add_zero, sub_zero, mul_zero] at hu'
        refine ⟨?_, ?_⟩
        · have : 4 * u * (x3 * z2 - x2 * z3) ^ 2 = 4 * u * ((X3 - X2) * (z2 * z3)) ^ 2 := by rw [hx2, hx3]; ring
          rw [this]
          exact mul_ne_zero (mul_ne_zero h4 hu) (pow_ne_zero _ (mul_ne_zero hXd' (mul_ne_zero hz2 hz3)))
        · rw [WeierstrassCurve.Affine.slope_of_X_ne hX]
          simp only [WeierstrassCurve.Affine.addX, montCurve, zero_mul, add_zero, sub_zero, mul_zero]
          have e1 : ((Y2 - Y3) / (X2 - X3)) ^ 2 - A - X2 - X3 = ((Y2 - Y3) ^ 2 - (A + X2 + X3) * (X2 - X3) ^ 2) / (X2 - X3) ^ 2 := by
            field_simp
            ring
          have e2 : u = ((Y2 + Y3) ^ 2 - (A + X2 + X3) * (X2 - X3) ^ 2) / (X2 - X3) ^ 2 := by
            rw [hu', show X3 - X2 = -(X2 - X3) by ring]
            field_simp
            ring
          have e3 : ((Y2 - Y3) ^ 2 - (A + X2 + X3) * (X2 - X3) ^ 2) * ((Y2 + Y3) ^ 2 - (A + X2 + X3) * (X2 - X3) ^ 2)
              = (X2 * X3 - 1) ^ 2 * (X2 - X3) ^ 2 := by
            have t1 : (Y2 - Y3) ^ 2 * (Y2 + Y3) ^ 2 = (X2 ^ 3 + A * X2 ^ 2 + X2 - (X3 ^ 3 + A * X3 ^ 2 + X3)) ^ 2 := by
              rw [← he2, ← he3]; ring
            have t2 : (Y2 - Y3) ^ 2 + (Y2 + Y3) ^ 2 = 2 * (X2 ^ 3 + A * X2 ^ 2 + X2) + 2 * (X3 ^ 3 + A * X3 ^ 2 + X3) := by
              rw [← he2, ← he3]; ring
            linear_combination t1 - (A + X2 + X3) * (X2 - X3) ^ 2 * t2
          rw [e1, e2, hx2, hx3]
          have hd : (X2 - X3) ^ 2 ≠ 0 := pow_ne_zero _ hXd
          generalize (Y2 - Y3) ^ 2 - (A + X2 + X3) * (X2 - X3) ^ 2 = a at e3 ⊢
          generalize (Y2 + Y3) ^ 2 - (A + X2 + X3) * (X2 - X3) ^ 2 = b at e3 ⊢
          have e4 : a / (X2 - X3) ^ 2 * (4 * (b / (X2 - X3) ^ 2) * (X3 * z3 * z2 - X2 * z2 * z3) ^ 2)
              = 4 * (z2 * z3) ^ 2 * ((a * b) / (X2 - X3) ^ 2) := by
            rw [show (X3 * z3 * z2 - X2 * z2 * z3) ^ 2 = (X2 - X3) ^ 2 * (z2 * z3) ^ 2 by ring]
            generalize (X2 - X3) ^ 2 = d at hd ⊢
            field_simp
          rw [e4, e3, mul_div_assoc, div_self hd]
          ring

end
end Verif.Proof
