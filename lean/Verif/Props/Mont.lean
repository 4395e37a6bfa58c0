import Verif.Proof.Mont

/-! Properties C24 - C29 and C81: include/caligo/mont.h. An object of `bignum<32*w>` is a list of `w` words. -/

namespace Verif.Props
open Verif.Model Verif.Proof Verif.Spec

/-! ### C24 -/

/-- C24: `RecursiveInverseModPower2(A) * A` is 1 modulo `2^(32w)`. -/
theorem C24_inverse (w : Nat) (hw : 0 < w) (A : List U32) (hA : A.length = w) (hodd : value A % 2 = 1) :
    ∃ r, recInv (32 * w) A = .ok r ∧ r.length = w ∧ (value r * value A) % 2 ^ (32 * w) = 1 := by
  obtain ⟨r, h1, h2, h3⟩ := recInv_spec w hw A hA hodd
  refine ⟨r, h1, h2, ?_⟩
  have h4 : ((value r * value A : ℕ) : ℤ) ≡ ((1 : ℕ) : ℤ) [ZMOD ((2 ^ (32 * w) : ℕ) : ℤ)] := by
    apply Int.ModEq.symm
    rw [Int.modEq_iff_dvd]; push_cast; exact h3
  have h5 := (Int.natCast_modEq_iff).mp h4
  rw [h5, Nat.mod_eq_of_lt]
  exact Nat.one_lt_two_pow (by omega)

example : recInv 96 [7#32, 0#32, 0x80000000#32] = .ok [0xb6db6db7#32, 0x6db6db6d#32, 0x5b6db6db#32] := by decide +kernel
example : (value [0xb6db6db7#32, 0x6db6db6d#32, 0x5b6db6db#32] * value [7#32, 0#32, 0x80000000#32]) % 2 ^ 96 = 1 := by decide +kernel

/-! ### C25 -/

/-- C25: for an odd modulus the constructor succeeds, and `REDC(v) * 2^K ≡ v (mod n)` with `REDC(v) < 2^K`, for every `v` of `2K` bits. -/
theorem C25_redc (w : Nat) (hw : 0 < w) (N : List U32) (hN : N.length = w) (hodd : value N % 2 = 1) :
    ∃ st, montNew (32 * w) N = .ok st ∧ ∀ v : List U32, v.length = 2 * w →
      ∃ t, redc (32 * w) st.N st.Ninv v = .ok t ∧ value t < 2 ^ (32 * w) ∧ value t * 2 ^ (32 * w) ≡ value v [MOD value N] := by
  obtain ⟨st, e, rfl, ok, _⟩ := montNew_spec w hw N hN hodd
  refine ⟨st, e, fun v hv => ?_⟩
  obtain ⟨t, h1, h2, h3⟩ := redc_zmod ok v hv
  refine ⟨t, h1, ?_, ?_⟩
  · have := value_lt t; rwa [h2] at this
  · apply (ZMod.natCast_eq_natCast_iff _ _ _).mp; push_cast; exact h3

/-- A case that meets the hypotheses of `C25_redc`. -/
example := C25_redc 2 (by decide) [5#32, 9#32] rfl (by decide)

/-- C25, the constants: `R1MN`, `R2MN`, `R3MN` are congruent to `2^K`, `2^2K`, `2^3K` and `Ninv * n ≡ -1`. -/
theorem C25_constants (w : Nat) (hw : 0 < w) (N : List U32) (hN : N.length = w) (hodd : value N % 2 = 1) :
    ∃ st, montNew (32 * w) N = .ok st ∧ st.N = N ∧ (value st.Ninv * value N + 1) % 2 ^ (32 * w) = 0 ∧
      value st.R1MN ≡ 2 ^ (32 * w) [MOD value N] ∧ value st.R2MN = 2 ^ (2 * (32 * w)) % value N ∧
      value st.R3MN ≡ 2 ^ (3 * (32 * w)) [MOD value N] := by
  obtain ⟨st, e, rfl, ok, _, _, h1, h3⟩ := montNew_spec w hw N hN hodd
  refine ⟨st, e, rfl, Nat.mod_eq_zero_of_dvd ok.inv, ?_, ?_, ?_⟩
  · apply (ZMod.natCast_eq_natCast_iff _ _ _).mp; push_cast; exact h1
  · rw [ok.v2, ← pow_add]; congr 2; ring
  · apply (ZMod.natCast_eq_natCast_iff _ _ _).mp; push_cast; rw [h3, ← pow_mul, Nat.mul_comm 3]

example : (do let st ← montNew 32 [15#32]; redc 32 st.N st.Ninv [0xffffffff#32, 0xffffffff#32]) = .ok [0xffffffff#32] := by decide +kernel
example : (0xffffffff * 2 ^ 32) % 15 = (2 ^ 64 - 1) % 15 := by decide

/-! ### C26 -/

/-- C26, the full claim: conversion to Montgomery form and back is reduction modulo `n`. -/
def C26_claim : Prop := ∀ (w : Nat) (N x : List U32), 0 < w → N.length = w → x.length = w → value N % 2 = 1 → 1 < value N →
  ∃ y, (do let st ← montNew (32 * w) N; let a ← montOf (32 * w) st x; montTo (32 * w) st a) = .ok y ∧ value y = value x % value N

/-- The claim fails at non-zero multiples of the modulus, which convert back to `n` instead of `0`. -/
theorem C26_false : ¬ C26_claim := by
  intro h
  obtain ⟨y, h1, h2⟩ := h 1 [3#32] [3#32] (by decide) rfl rfl (by decide) (by decide)
  have h3 : (Except.ok [3#32] : Out (List U32)) = Except.ok y := by
    rw [← h1]; decide +kernel
  have h4 : [3#32] = y := Except.ok.inj h3
  subst h4
  revert h2; decide

/-- C26, what holds: every non-zero multiple of `n` converts back to `n`; everything else converts back to the residue. -/
theorem C26_partial (w : Nat) (N x : List U32) (hw : 0 < w) (hN : N.length = w) (hx : x.length = w) (hodd : value N % 2 = 1) (h1 : 1 < value N) :
    ∃ y, (do let st ← montNew (32 * w) N; let a ← montOf (32 * w) st x; montTo (32 * w) st a) = .ok y ∧ y.length = w ∧
      value y = if value x ≠ 0 ∧ value N ∣ value x then value N else value x % value N := by
  obtain ⟨st, e, rfl, ok, _⟩ := montNew_spec w hw N hN hodd
  obtain ⟨a, e2, l2, v2⟩ := montOf_zmod ok x hx
  have z2 := montOf_zero ok h1 x a hx e2
  obtain ⟨y, e3, l3, v3, le3, z3⟩ := montTo_spec ok a l2
  refine ⟨y, by rw [e, loop_ok_bind, e2, loop_ok_bind, e3], l3, canon le3 ?_ (z3.trans z2)⟩
  apply zmod_mod
  apply (isUnit_R ok).mul_right_cancel
  rw [v3, v2]

/-- A case that meets the hypotheses of `C26_partial`. -/
example := C26_partial 2 [5#32, 9#32] [7#32, 0xffffffff#32] (by decide) rfl rfl (by decide) (by decide)

/-- C26 in full for canonical residues: `x < n` converts to Montgomery form and back to `x` itself. -/
theorem C26_residue_partial (w : Nat) (N x : List U32) (hw : 0 < w) (hN : N.length = w) (hx : x.length = w) (hodd : value N % 2 = 1)
    (h1 : 1 < value N) (hlt : value x < value N) :
    (do let st ← montNew (32 * w) N; let a ← montOf (32 * w) st x; montTo (32 * w) st a) = .ok x := by
  obtain ⟨y, h, hl, hv⟩ := C26_partial w N x hw hN hx hodd h1
  rw [h]
  congr 1
  refine value_inj (by omega) ?_
  rw [hv, if_neg, Nat.mod_eq_of_lt hlt]
  rintro ⟨h2, h3⟩
  have := Nat.le_of_dvd (by omega) h3
  omega

example : (do let st ← montNew 64 [5#32, 9#32]; let a ← montOf 64 st [7#32, 8#32]; montTo 64 st a) = .ok [7#32, 8#32] := by decide +kernel

/-! ### C27 -/

/-- C27: the constructor succeeds for every odd modulus, and product, square and power of arbitrary Montgomery values convert back to a number
congruent to the product, square and power of the converted operands. -/
theorem C27_arith (w : Nat) (hw : 0 < w) (N : List U32) (hN : N.length = w) (hodd : value N % 2 = 1) :
    ∃ st, montNew (32 * w) N = .ok st ∧ ∀ a b e : List U32, a.length = w → b.length = w → e.length = w →
      ∃ x y, montTo (32 * w) st a = .ok x ∧ montTo (32 * w) st b = .ok y ∧
        (∃ p, (do let m ← montMul (32 * w) st a b; montTo (32 * w) st m) = .ok p ∧ value p ≡ value x * value y [MOD value N] ∧ value p ≤ value N) ∧
        (∃ s, (do let m ← montSquare (32 * w) st a; montTo (32 * w) st m) = .ok s ∧ value s ≡ value x ^ 2 [MOD value N] ∧ value s ≤ value N) ∧
        (∃ q, (do let m ← montExp (32 * w) st a e; montTo (32 * w) st m) = .ok q ∧ value q ≡ value x ^ value e [MOD value N] ∧
          value q ≤ value N) := by
  obtain ⟨st, est, rfl, ok, _⟩ := montNew_spec w hw N hN hodd
  refine ⟨st, est, fun a b e ha hb he => ?_⟩
  obtain ⟨x, ex, lx, vx, _, _⟩ := montTo_spec ok a ha
  obtain ⟨y, ey, ly, vy, _, _⟩ := montTo_spec ok b hb
  have hu := isUnit_R ok
  refine ⟨x, y, ex, ey, ?_, ?_, ?_⟩
  · obtain ⟨m, em, lm, vm⟩ := montMul_zmod ok a b ha hb
    obtain ⟨p, ep, lp, vp, lep, _⟩ := montTo_spec ok m lm
    refine ⟨p, by rw [em, loop_ok_bind, ep], ?_, lep⟩
    apply zmod_mod
    apply hu.mul_right_cancel
    apply hu.mul_right_cancel
    push_cast
    rw [vp, vm, ← vx, ← vy]; ring
  · obtain ⟨m, em, lm, vm⟩ := montSquare_zmod ok a ha
    obtain ⟨p, ep, lp, vp, lep, _⟩ := montTo_spec ok m lm
    refine ⟨p, by rw [em, loop_ok_bind, ep], ?_, lep⟩
    apply zmod_mod
    apply hu.mul_right_cancel
    apply hu.mul_right_cancel
    push_cast
    rw [vp, vm, ← vx]; ring
  · obtain ⟨m, em, lm, vm⟩ := montExp_zmod ok a e ha he (value x) vx.symm
    obtain ⟨p, ep, lp, vp, lep, _⟩ := montTo_spec ok m lm
    refine ⟨p, by rw [em, loop_ok_bind, ep], ?_, lep⟩
    apply zmod_mod
    apply hu.mul_right_cancel
    push_cast
    rw [vp, vm]

example : (do let st ← montNew 32 [1000003#32]; let a ← montOf 32 st [2#32]; let m ← montExp 32 st a [20#32]; montTo 32 st m) =
    .ok [48573#32] := by decide +kernel
example : 2 ^ 20 % 1000003 = 48573 := by decide

/-! ### C28 -/

/-- C28, the full claim: the sum of Montgomery values converts back to a number congruent to the sum. -/
def C28_claim : Prop := ∀ (w : Nat) (N x y : List U32), 0 < w → N.length = w → x.length = w → y.length = w → value N % 2 = 1 →
  ∃ s, (do let st ← montNew (32 * w) N; let a ← montOf (32 * w) st x; let b ← montOf (32 * w) st y; montTo (32 * w) st (montAdd a b)) = .ok s ∧
    value s ≡ value x + value y [MOD value N]

/-- `operator+` drops the carry. -/
theorem C28_false : ¬ C28_claim := by
  intro h
  obtain ⟨y, h1, h2⟩ := h 1 [0xfffffffb#32] [3358024679#32] [3358024679#32] (by decide) rfl rfl rfl (by decide)
  have h3 : (Except.ok [2421082066#32] : Out (List U32)) = Except.ok y := by
    rw [← h1]; decide +kernel
  have h4 : [2421082066#32] = y := Except.ok.inj h3
  subst h4
  revert h2; decide

/-- C28, what holds: the sum is right when the representatives add up below `2^K`, and otherwise it is one too small. -/
theorem C28_partial (w : Nat) (N x y : List U32) (hw : 0 < w) (hN : N.length = w) (hx : x.length = w) (hy : y.length = w) (hodd : value N % 2 = 1) :
    ∃ st a b s, montNew (32 * w) N = .ok st ∧ montOf (32 * w) st x = .ok a ∧ montOf (32 * w) st y = .ok b ∧
      montTo (32 * w) st (montAdd a b) = .ok s ∧
      (value a + value b < 2 ^ (32 * w) → value s ≡ value x + value y [MOD value N]) ∧
      (2 ^ (32 * w) ≤ value a + value b → value s + 1 ≡ value x + value y [MOD value N]) := by
  obtain ⟨st, est, rfl, ok, _⟩ := montNew_spec w hw N hN hodd
  obtain ⟨a, ea, la, va⟩ := montOf_zmod ok x hx
  obtain ⟨b, eb, lb, vb⟩ := montOf_zmod ok y hy
  have hadd := bnAdd_spec a b (by omega)
  have ladd := bnAdd_length a b (by omega)
  obtain ⟨s, es, ls, vs, _, _⟩ := montTo_spec ok (montAdd a b) (by rw [montAdd, ladd, la])
  have hu := isUnit_R ok
  rw [montAdd] at vs
  have hlt := value_lt (bnAdd a b).2
  rw [ladd, la] at hlt
  rw [la] at hadd
  refine ⟨st, a, b, s, est, ea, eb, es, fun h => ?_, fun h => ?_⟩
  · have hc : (bnAdd a b).1 = false := by
      cases hc : (bnAdd a b).1
      · rfl
      · rw [hc] at hadd; simp at hadd; omega
    rw [hc] at hadd
    simp at hadd
    apply zmod_mod
    apply hu.mul_right_cancel
    rw [vs, hadd]; push_cast; rw [va, vb]; ring
  · have hc : (bnAdd a b).1 = true := by
      cases hc : (bnAdd a b).1
      · rw [hc] at hadd; simp at hadd; omega
      · rfl
    rw [hc] at hadd
    simp at hadd
    apply zmod_mod
    apply hu.mul_right_cancel
    have := congrArg (fun x : ℕ => (x : ZMod (value st.N))) hadd
    push_cast at this
    push_cast
    rw [add_mul, vs, one_mul, this, va, vb]; ring

example : (do let st ← montNew 32 [0xfffffffb#32]; let a ← montOf 32 st [3#32]; let b ← montOf 32 st [5#32]; montTo 32 st (montAdd a b)) =
    .ok [8#32] := by decide +kernel

/-! ### C29 -/

/-- C29, the full claim. -/
def C29_claim : Prop := ∀ (w : Nat) (N x : List U32) (e : U32), 0 < w → N.length = w → x.length = w → value N % 2 = 1 →
  ∃ s, (do let st ← montNew (32 * w) N; let a ← montOf (32 * w) st x; let m ← montExp32 (32 * w) st a e; montTo (32 * w) st m) = .ok s ∧
    value s ≡ value x ^ e.toNat [MOD value N]

/-- The exponent is not looked at. -/
theorem C29_false : ¬ C29_claim := by
  intro h
  obtain ⟨y, h1, h2⟩ := h 1 [0xfffffffb#32] [3#32] 3#32 (by decide) rfl rfl (by decide)
  have h3 : (Except.ok [3404937156#32] : Out (List U32)) = Except.ok y := by
    rw [← h1]; decide +kernel
  have h4 : [3404937156#32] = y := Except.ok.inj h3
  subst h4
  revert h2; decide

/-- C29, what holds: the result is the 65537th power for every exponent; so the claim holds for exponent 65537. -/
theorem C29_partial (w : Nat) (N x : List U32) (e : U32) (hw : 0 < w) (hN : N.length = w) (hx : x.length = w) (hodd : value N % 2 = 1) :
    ∃ s, (do let st ← montNew (32 * w) N; let a ← montOf (32 * w) st x; let m ← montExp32 (32 * w) st a e; montTo (32 * w) st m) = .ok s ∧
      value s ≡ value x ^ 65537 [MOD value N] ∧ (e = 65537#32 → value s ≡ value x ^ e.toNat [MOD value N]) := by
  obtain ⟨st, est, rfl, ok, _⟩ := montNew_spec w hw N hN hodd
  obtain ⟨a, ea, la, va⟩ := montOf_zmod ok x hx
  obtain ⟨m, em, lm, vm⟩ := montExp32_zmod ok a e la (value x) va
  obtain ⟨s, es, ls, vs, _, _⟩ := montTo_spec ok m lm
  have key : value s ≡ value x ^ 65537 [MOD value st.N] := by
    apply zmod_mod
    apply (isUnit_R ok).mul_right_cancel
    rw [vs, vm, Nat.cast_pow]
  refine ⟨s, by rw [est, loop_ok_bind, ea, loop_ok_bind, em, loop_ok_bind, es], key, ?_⟩
  rintro rfl
  exact key

example : (do let st ← montNew 32 [101#32]; let a ← montOf 32 st [2#32]; let m ← montExp32 32 st a 65537#32; montTo 32 st m) = .ok [55#32] := by
  decide +kernel
example : 2 ^ (65537 % 100) % 101 = 55 := by decide

/-! ### C81 -/

/-- C81, the full claim: Montgomery arithmetic works at every width, not only at multiples of 32. -/
def C81_claim : Prop := ∀ (K : Nat) (N x : List U32), 0 < K → N.length = wordCount K → x.length = wordCount K → value N % 2 = 1 → 1 < value N →
  value N < 2 ^ K → value x < value N →
  (do let st ← montNew K N; let a ← montOf K st x; montTo K st a) = .ok x

/-- At 50 bits the value 1 modulo 3 converts to Montgomery form and back to `2^32 + 12`. -/
theorem C81_false : ¬ C81_claim := by
  intro h
  have h1 := h 50 [3#32, 0#32] [1#32, 0#32] (by decide) rfl rfl (by decide) (by decide) (by decide) (by decide)
  revert h1; decide +kernel

/-- C81: at widths with `1 ≤ K mod 32 ≤ 16` every construction of a Montgomery value writes past the end of the product. -/
theorem C81_partial (K : Nat) (st : MontState) (x : List U32) (h1 : 0 < K % 32) (h2 : K % 32 ≤ 16) (hx : x.length = wordCount K)
    (hR : st.R2MN.length = wordCount K) : montOf K st x = .error .ub := by
  rw [montOf, bnMul_ub K x st.R2MN hx hR (by unfold bnN; omega)]
  rfl

example : montOf 40 ⟨[3#32, 0#32], [0#32, 0#32], [0#32, 0#32], [1#32, 0#32], [0#32, 0#32]⟩ [1#32, 0#32] = .error .ub := by decide +kernel

end Verif.Props
