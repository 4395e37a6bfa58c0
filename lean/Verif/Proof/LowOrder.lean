import Verif.Proof.Order25519

/-! The points whose order divides eight. -/

namespace Verif.Proof
open Verif.Spec

theorem nonsq (c : Nat) (hc : powMod p25519 256 c ((p25519 - 1) / 2) = p25519 - 1) (x : ZMod p25519) : x ^ 2 ≠ (c : ZMod p25519) := by
  intro h
  have e1 : (c : ZMod p25519) ^ ((p25519 - 1) / 2) = -1 := by
    rw [← Nat.cast_pow, ← ZMod.natCast_mod, ← powMod_eq p25519 256 c _ (by decide +kernel), hc,
      Nat.cast_sub (by decide +kernel), ZMod.natCast_self, Nat.cast_one, zero_sub]
  have e2 : 2 * ((p25519 - 1) / 2) = p25519 - 1 := by decide +kernel
  rw [← h, ← pow_mul, e2] at e1
  have h2 : (2 : ZMod p25519) ≠ 0 := K2
  by_cases hx : x = 0
  · rw [hx, zero_pow (by decide +kernel)] at e1
    apply h2
    linear_combination 2 * e1
  · rw [ZMod.pow_card_sub_one_eq_one hx] at e1
    apply h2
    linear_combination e1

theorem nat_eq (a b : Nat) (h : a % p25519 = b % p25519) : (a : ZMod p25519) = (b : ZMod p25519) :=
  (ZMod.natCast_eq_natCast_iff a b p25519).mpr h

/-- `x^2 + A x z + z^2` has no zeros. -/
theorem quad_ne {x z : ZMod p25519} (h : x ^ 2 + 486662 * x * z + z ^ 2 = 0) : z = 0 ∧ x = 0 := by
  have hz : z = 0 := by
    by_contra hz
    apply nonsq 236839902240 (by decide +kernel) ((2 * x + 486662 * z) / z)
    push_cast
    rw [div_pow, div_eq_iff (pow_ne_zero 2 hz)]
    linear_combination 4 * h
  refine ⟨hz, ?_⟩
  rw [hz] at h
  have : x ^ 2 = 0 := by linear_combination h
  exact pow_eq_zero_iff (by decide) |>.mp this

/-- The residues whose points have an order that divides eight. -/
def LowOrder (u : ZMod p25519) : Prop := u = 0 ∨ u = 1 ∨ u = -1 ∨ u = u8 ∨ u = u8'

theorem four_ne : (4 : ZMod p25519) ≠ 0 := by
  have := zmod_ne_zero 4 (by decide) (by decide)
  exact_mod_cast this

theorem torsion_alg (u x2 z2 x4 z4 z8 : ZMod p25519) (hx2 : x2 = (u ^ 2 - 1) ^ 2) (hz2 : z2 = 4 * u * (u ^ 2 + 486662 * u + 1))
    (hx4 : x4 = (x2 ^ 2 - z2 ^ 2) ^ 2) (hz4 : z4 = 4 * x2 * z2 * (x2 ^ 2 + 486662 * x2 * z2 + z2 ^ 2))
    (hz8 : z8 = 4 * x4 * z4 * (x4 ^ 2 + 486662 * x4 * z4 + z4 ^ 2)) : z8 = 0 ↔ LowOrder u := by
  have hpz : ∀ {x : ZMod p25519}, x ^ 2 = 0 → x = 0 := fun h => pow_eq_zero_iff (by decide) |>.mp h
  have step1 : z8 = 0 ↔ x4 = 0 ∨ z4 = 0 := by
    rw [hz8]
    constructor
    · intro h
      rcases mul_eq_zero.mp h with h | h
      · rcases mul_eq_zero.mp h with h | h
        · left; exact (mul_eq_zero.mp h).resolve_left four_ne
        · right; exact h
      · left; exact (quad_ne h).2
    · rintro (h | h) <;> rw [h] <;> ring
  have step2 : z4 = 0 ↔ x2 = 0 ∨ z2 = 0 := by
    rw [hz4]
    constructor
    · intro h
      rcases mul_eq_zero.mp h with h | h
      · rcases mul_eq_zero.mp h with h | h
        · left; exact (mul_eq_zero.mp h).resolve_left four_ne
        · right; exact h
      · left; exact (quad_ne h).2
    · rintro (h | h) <;> rw [h] <;> ring
  have step3 : x4 = 0 ↔ x2 = z2 ∨ x2 = -z2 := by
    rw [hx4]
    constructor
    · intro h
      have : (x2 - z2) * (x2 + z2) = 0 := by linear_combination hpz h
      rcases mul_eq_zero.mp this with h | h
      · left; linear_combination h
      · right; linear_combination h
    · rintro (h | h) <;> rw [h] <;> ring
  have step4 : z2 = 0 ↔ u = 0 := by
    rw [hz2]
    constructor
    · intro h
      rcases mul_eq_zero.mp h with h | h
      · exact (mul_eq_zero.mp h).resolve_left four_ne
      · exact absurd (quad_ne (x := u) (z := 1) (by linear_combination h)).1 one_ne_zero
    · intro h; rw [h]; ring
  have step5 : x2 = 0 ↔ u = 1 ∨ u = -1 := by
    rw [hx2]
    constructor
    · intro h
      have : (u - 1) * (u + 1) = 0 := by linear_combination hpz h
      rcases mul_eq_zero.mp this with h | h
      · left; linear_combination h
      · right; linear_combination h
    · rintro (h | h) <;> rw [h] <;> ring
  have step6 : x2 ≠ -z2 := by
    intro h
    rw [hx2, hz2] at h
    have hu : u ≠ 0 := by
      rintro rfl
      exact one_ne_zero (α := ZMod p25519) (by linear_combination h)
    have h2 : (2 : ZMod p25519) ≠ 0 := K2
    apply nonsq (p25519 + 2 - 486662) (by decide +kernel) ((u + 1) ^ 2 / (2 * u))
    rw [Nat.cast_sub (by decide +kernel), Nat.cast_add, ZMod.natCast_self]
    push_cast
    rw [div_pow, div_eq_iff (pow_ne_zero 2 (mul_ne_zero h2 hu))]
    linear_combination h
  have step7 : x2 = z2 ↔ u = u8 ∨ u = u8' := by
    have k1 : (u8 : ZMod p25519) * u8' = 1 := by
      have := nat_eq (u8 * u8') 1 (by decide +kernel)
      push_cast at this; exact this
    have k2 : ((u8 : ZMod p25519) + u8') * (4 - u8 - u8') = -(4 + 4 * 486662) := by
      have := nat_eq ((u8 + u8') * (4 + p25519 - u8 + p25519 - u8')) ((p25519 - 4) + 4 * (p25519 - 486662)) (by decide +kernel)
      rw [Nat.cast_mul, Nat.cast_add, Nat.cast_sub (by decide +kernel), Nat.cast_add, Nat.cast_sub (by decide +kernel), Nat.cast_add, Nat.cast_add,
        Nat.cast_mul, Nat.cast_sub (by decide +kernel), Nat.cast_sub (by decide +kernel), ZMod.natCast_self] at this
      push_cast at this
      linear_combination this
    have fac : x2 - z2 = (u - u8) * (u - u8') * (u ^ 2 - (4 - u8 - u8') * u + 1) := by
      rw [hx2, hz2]
      linear_combination (-u ^ 2 + (4 - u8 - u8') * u - 1) * k1 - u ^ 2 * k2
    constructor
    · intro h
      rw [h, sub_self] at fac
      rcases mul_eq_zero.mp fac.symm with h | h
      · rcases mul_eq_zero.mp h with h | h
        · left; linear_combination h
        · right; linear_combination h
      · exfalso
        apply nonsq ((4 + p25519 - u8 + p25519 - u8') ^ 2 + p25519 - 4) (by decide +kernel) (2 * u - (4 - u8 - u8'))
        rw [Nat.cast_sub (by decide +kernel), Nat.cast_add, Nat.cast_pow, Nat.cast_sub (by decide +kernel), Nat.cast_add, Nat.cast_sub (by decide +kernel), Nat.cast_add,
          ZMod.natCast_self]
        push_cast
        linear_combination 4 * h
    · rintro (h | h) <;> rw [← sub_eq_zero, fac, h] <;> ring
  rw [step1, step2, step3, step4, step5, step7, LowOrder]
  constructor
  · rintro ((h | h) | ((h | h) | h))
    · exact .inr (.inr (.inr h))
    · exact absurd h step6
    · exact .inr (.inl h)
    · exact .inr (.inr (.inl h))
    · exact .inl h
  · rintro (h | h | h | h)
    · exact .inr (.inr h)
    · exact .inr (.inl (.inl h))
    · exact .inr (.inl (.inr h))
    · exact .inl (.inl h)

/-- `8 P = 0` for exactly five residues. -/
theorem eight_zero_iff (u : ZMod p25519) (v : Kc) (h : (curve25519 Kc).Nonsingular (algebraMap _ _ u) v) :
    8 • (.some _ v h : Pt) = 0 ↔ LowOrder u := by
  set f := algebraMap (ZMod p25519) Kc with hf
  have hP : Rep (f u) 1 (.some _ v h : Pt) := ⟨one_ne_zero, (mul_one _).symm⟩
  have r1 := rep_dbl (A := (486662 : Kc)) (a24 := 121665) K2 KA Ka24 hP
  have r2 := rep_dbl (A := (486662 : Kc)) (a24 := 121665) K2 KA Ka24 r1
  have r3 := rep_dbl (A := (486662 : Kc)) (a24 := 121665) K2 KA Ka24 r2
  have e8 : ∀ P : Pt, 8 • P = (P + P + (P + P)) + (P + P + (P + P)) := by intro P; abel
  rw [e8]
  refine (rep_zero_iff r3).symm.trans ?_
  rw [← torsion_alg u _ _ _ _ _ rfl rfl rfl rfl rfl, ← map_eq_zero f]
  simp only [xDbl_eq (A := (486662 : Kc)) Ka24]
  have hA : f 486662 = 486662 := map_ofNat _ 486662
  have h4 : f 4 = 4 := map_ofNat _ 4
  simp only [map_mul, map_add, map_sub, map_pow, hA, h4, map_one]
  apply Eq.congr_left
  ring

end Verif.Proof
