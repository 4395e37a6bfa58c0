import Verif.Model.Mont
import Verif.Proof.BignumOps
import Mathlib.Data.ZMod.Basic
import Mathlib.Data.Int.ModEq

/-! Montgomery arithmetic at widths `K = 32 w`. -/

namespace Verif.Proof
open Verif.Model Verif.Spec

/-! ### Inverse modulo a power of two -/

/-- Newton: an inverse modulo `M` becomes an inverse modulo every divisor of `M²`. -/
theorem newton_int (a r M Q r' : ℤ) (h : M ∣ r * a - 1) (hQ : Q ∣ M * M) (hr : Q ∣ r' - r * (2 - r * a)) : Q ∣ r' * a - 1 := by
  have h1 : Q ∣ (r * a - 1) * (r * a - 1) := dvd_trans hQ (mul_dvd_mul h h)
  have h2 : r' * a - 1 = (r' - r * (2 - r * a)) * a - (r * a - 1) * (r * a - 1) := by ring
  rw [h2]
  exact dvd_sub (Dvd.dvd.mul_right hr a) h1

theorem newtonStep_int (a r : U32) : ((2:ℤ) ^ 32) ∣ ((newtonStep a r).toNat : ℤ) - (r.toNat : ℤ) * (2 - (r.toNat : ℤ) * (a.toNat : ℤ)) := by
  have h : ∀ x y : ℤ, x ≡ y [ZMOD 2 ^ 32] → (2:ℤ) ^ 32 ∣ x - y := fun x y h => (Int.modEq_iff_dvd.mp h.symm)
  apply h
  have e : ((newtonStep a r).toNat : ℤ) = ((r.toNat : ℤ) * (((2 ^ 32 - ((r.toNat : ℤ) * (a.toNat : ℤ)) % 2 ^ 32) + 2) % 2 ^ 32)) % 2 ^ 32 := by
    have hlt : (r.toNat * a.toNat) % 4294967296 ≤ 4294967296 := le_of_lt (Nat.mod_lt _ (by decide))
    rw [newtonStep, BitVec.toNat_mul, BitVec.toNat_sub, BitVec.toNat_mul]
    push_cast
    rw [Nat.cast_sub hlt]
    push_cast
    rfl
  rw [e]
  refine (Int.mod_modEq _ _).trans ?_
  refine Int.ModEq.mul_left _ ?_
  refine (Int.mod_modEq _ _).trans ?_
  have h2 : (r.toNat : ℤ) * (a.toNat : ℤ) % 2 ^ 32 ≡ (r.toNat : ℤ) * (a.toNat : ℤ) [ZMOD 2 ^ 32] := Int.mod_modEq _ _
  have h3 : (2:ℤ) ^ 32 ≡ 0 [ZMOD 2 ^ 32] := by decide
  have := ((h3.sub h2).add_right 2)
  refine this.trans ?_
  rw [show (0:ℤ) - (r.toNat : ℤ) * (a.toNat : ℤ) + 2 = 2 - (r.toNat : ℤ) * (a.toNat : ℤ) by ring]

theorem inv32 (a : U32) (h : a.toNat % 2 = 1) :
    ((2:ℤ) ^ 32) ∣ ((newtonStep a (newtonStep a (newtonStep a (newtonStep a (a % 4#32))))).toNat : ℤ) * (a.toNat : ℤ) - 1 := by
  set r0 := a % 4#32 with hr0
  have e0 : r0.toNat = a.toNat % 4 := by rw [hr0, BitVec.toNat_umod]; rfl
  have h0 : (4:ℤ) ∣ (r0.toNat : ℤ) * (a.toNat : ℤ) - 1 := by
    have hq : (a.toNat : ℤ) = 4 * ((a.toNat / 4 : ℕ) : ℤ) + ((a.toNat % 4 : ℕ) : ℤ) := by
      have := Nat.div_add_mod a.toNat 4
      exact_mod_cast this.symm
    have hm : a.toNat % 4 = 1 ∨ a.toNat % 4 = 3 := by omega
    rw [e0]
    rcases hm with hm | hm
    · rw [hm] at hq ⊢
      exact ⟨((a.toNat / 4 : ℕ) : ℤ), by rw [hq]; push_cast; ring⟩
    · rw [hm] at hq ⊢
      exact ⟨3 * ((a.toNat / 4 : ℕ) : ℤ) + 2, by rw [hq]; push_cast; ring⟩
  have step : ∀ (r : U32) (M Q : ℤ), M ∣ (r.toNat : ℤ) * (a.toNat : ℤ) - 1 → Q ∣ M * M → Q ∣ (2:ℤ) ^ 32 →
      Q ∣ ((newtonStep a r).toNat : ℤ) * (a.toNat : ℤ) - 1 := fun r M Q h hQ hQ2 =>
    newton_int _ _ M Q _ h hQ (dvd_trans hQ2 (newtonStep_int a r))
  have h1 := step r0 4 (2 ^ 4) h0 (by norm_num) (by norm_num)
  have h2 := step _ (2 ^ 4) (2 ^ 8) h1 (by norm_num) (by norm_num)
  have h3 := step _ (2 ^ 8) (2 ^ 16) h2 (by norm_num) (by norm_num)
  exact step _ (2 ^ 16) (2 ^ 32) h3 (by norm_num) (by norm_num)

theorem bnN_mul32 (w : Nat) : bnN (32 * w) = w := by unfold bnN; omega

theorem int_dvd_of_mod {x y m : Nat} (h : x % m = y % m) : (m : ℤ) ∣ (x : ℤ) - (y : ℤ) :=
  (Int.modEq_iff_dvd.mp ((Int.natCast_modEq_iff.mpr (show y ≡ x [MOD m] from h.symm))))

/-- `RecursiveInverseModPower2` : inverse modulo `2^(32 w)` of an odd number -/
theorem recInv_spec (w : Nat) (hw : 0 < w) (A : List U32) (hA : A.length = w) (hodd : value A % 2 = 1) :
    ∃ r, recInv (32 * w) A = .ok r ∧ r.length = w ∧ ((2:ℤ) ^ (32 * w)) ∣ (value r : ℤ) * (value A : ℤ) - 1 := by
  induction w using Nat.strongRecOn generalizing A with
  | ind w ih =>
    rw [recInv, bnN_mul32]
    by_cases h1 : 1 < w
    · rw [dif_pos h1]
      set w' := (w + 1) / 2 with hw'
      have ek : (32 * w / 32 + 1) / 2 * 32 = 32 * w' := by
        rw [Nat.mul_div_cancel_left _ (by decide)]; omega
      rw [ek]
      obtain ⟨half, e1, l1, v1⟩ := bnSlice_value (32 * w') A 0 (by rw [bnN_mul32]; omega)
      rw [bnN_mul32] at l1 v1
      simp only [Nat.zero_div, Nat.mul_zero, pow_zero, Nat.div_one] at v1
      have hodd' : value half % 2 = 1 := by
        rw [v1, Nat.mod_mod_of_dvd _ (dvd_pow_self 2 (by omega))]; exact hodd
      obtain ⟨r0, e2, l2, d2⟩ := ih w' (by omega) (by omega) half l1 hodd'
      rw [e1, loop_ok_bind, e2, loop_ok_bind]
      dsimp only
      set r := bnConvert (32 * w) (32 * w') r0 with hr
      have lr : r.length = w := by rw [hr, bnConvert_length, bnN_mul32]
      have vr : value r = value r0 := by
        rw [hr, bnConvert_value _ _ _ (by rw [bnN_mul32]; exact l2), Nat.min_eq_left (by omega), Nat.mul_div_cancel_left _ (by decide)]
        apply Nat.mod_eq_of_lt
        have := value_lt r0
        rwa [l2] at this
      obtain ⟨rA, e3, l3, v3⟩ := bnMul_spec (32 * w) r A (by rw [bnN_mul32]; exact lr) (by rw [bnN_mul32]; exact hA)
        (by rw [bnN_mul32, show 2 * (32 * w) = 32 * (2 * w) by ring, bnN_mul32])
      rw [show 2 * (32 * w) = 32 * (2 * w) by ring, bnN_mul32] at l3
      obtain ⟨rAs, e4, l4, v4⟩ := bnSlice_value (32 * w) rA 0 (by rw [bnN_mul32]; omega)
      rw [bnN_mul32] at l4 v4
      simp only [Nat.zero_div, Nat.mul_zero, pow_zero, Nat.div_one] at v4
      rw [e3, loop_ok_bind, e4, loop_ok_bind]
      obtain ⟨l5, v5⟩ := bnOfU32_spec (32 * w) (by omega) 2#32
      rw [bnN_mul32] at l5
      set d := (bnSub (bnOfU32 (32 * w) 2#32) rAs).2 with hd
      have ld : d.length = w := by rw [hd, bnSub_length _ _ (by omega), l5]
      have vd := bnSub_spec (bnOfU32 (32 * w) 2#32) rAs (by omega)
      rw [← hd, v5, l5, show BitVec.toNat 2#32 = 2 by rfl] at vd
      obtain ⟨rv, e6, l6, v6⟩ := bnMul_spec (32 * w) r d (by rw [bnN_mul32]; exact lr) (by rw [bnN_mul32]; exact ld)
        (by rw [bnN_mul32, show 2 * (32 * w) = 32 * (2 * w) by ring, bnN_mul32])
      rw [e6, loop_ok_bind]
      refine ⟨_, rfl, by rw [bnConvert_length, bnN_mul32], ?_⟩
      have vf := bnConvert_value (32 * w) (2 * (32 * w)) rv l6
      rw [Nat.min_eq_right (by omega), Nat.mul_div_cancel_left _ (by decide), v6] at vf
      -- d ≡ 2 - r*A
      have hd1 : ((2:ℤ) ^ (32 * w)) ∣ (value d : ℤ) - (2 - (value r : ℤ) * (value A : ℤ)) := by
        have ha : ((2:ℤ) ^ (32 * w)) ∣ (value rA : ℤ) - (value rAs : ℤ) := by
          have := int_dvd_of_mod (x := value rA) (y := value rAs) (m := 2 ^ (32 * w)) (by rw [v4, Nat.mod_mod])
          push_cast at this; exact this
        have hb : ((2:ℤ) ^ (32 * w)) ∣ (value d : ℤ) + (value rAs : ℤ) - 2 := by
          refine ⟨if (bnSub (bnOfU32 (32 * w) 2#32) rAs).1 = true then 1 else 0, ?_⟩
          have : ((value d + value rAs : ℕ) : ℤ) = ((2 + 2 ^ (32 * w) * (if (bnSub (bnOfU32 (32 * w) 2#32) rAs).1 = true then 1 else 0) : ℕ) : ℤ) := by
            rw [vd]
          push_cast at this
          rw [this]; ring
        have hc : (value d : ℤ) - (2 - (value r : ℤ) * (value A : ℤ)) = ((value d : ℤ) + (value rAs : ℤ) - 2) + ((value rA : ℤ) - (value rAs : ℤ)) := by
          rw [v3]; push_cast; ring
        rw [hc]; exact dvd_add hb ha
      have hr1 : ((2:ℤ) ^ (32 * w)) ∣ (value (bnConvert (32 * w) (2 * (32 * w)) rv) : ℤ) - (value r : ℤ) * (2 - (value r : ℤ) * (value A : ℤ)) := by
        have ha : ((2:ℤ) ^ (32 * w)) ∣ (value (bnConvert (32 * w) (2 * (32 * w)) rv) : ℤ) - (value r : ℤ) * (value d : ℤ) := by
          have := int_dvd_of_mod (x := value (bnConvert (32 * w) (2 * (32 * w)) rv)) (y := value r * value d) (m := 2 ^ (32 * w)) (by rw [vf, Nat.mod_mod])
          push_cast at this; exact this
        have hc : (value (bnConvert (32 * w) (2 * (32 * w)) rv) : ℤ) - (value r : ℤ) * (2 - (value r : ℤ) * (value A : ℤ))
          = ((value (bnConvert (32 * w) (2 * (32 * w)) rv) : ℤ) - (value r : ℤ) * (value d : ℤ)) + (value r : ℤ) * ((value d : ℤ) - (2 - (value r : ℤ) * (value A : ℤ))) := by ring
        rw [hc]; exact dvd_add ha (Dvd.dvd.mul_left hd1 _)
      refine newton_int _ _ ((2:ℤ) ^ (32 * w')) _ _ ?_ ?_ hr1
      · -- r A ≡ 1 mod 2^(32 w')
        rw [vr]
        have ha : ((2:ℤ) ^ (32 * w')) ∣ (value A : ℤ) - (value half : ℤ) := by
          have := int_dvd_of_mod (x := value A) (y := value half) (m := 2 ^ (32 * w')) (by rw [v1, Nat.mod_mod])
          push_cast at this; exact this
        have hc : (value r0 : ℤ) * (value A : ℤ) - 1 = ((value r0 : ℤ) * (value half : ℤ) - 1) + (value r0 : ℤ) * ((value A : ℤ) - (value half : ℤ)) := by ring
        rw [hc]; exact dvd_add d2 (Dvd.dvd.mul_left ha _)
      · rw [← pow_add]
        exact pow_dvd_pow _ (by omega)
    · rw [dif_neg h1]
      have hw1 : w = 1 := by omega
      subst hw1
      match A, hA with
      | [a], _ =>
        have hva : value [a] = a.toNat := by simp [value]
        rw [hva] at hodd ⊢
        rw [rd_ok (by simp), loop_ok_bind]
        refine ⟨_, rfl, (bnOfU32_spec 32 (by decide) _).1, ?_⟩
        dsimp only [List.getElem_cons_zero]
        rw [(bnOfU32_spec 32 (by decide) _).2]
        exact inv32 a hodd

end Verif.Proof

namespace Verif.Proof
open Verif.Model Verif.Spec

/-! ### REDC -/

theorem two_mul32 (w : Nat) : 2 * (32 * w) = 32 * (2 * w) := by ring

theorem redc_dvd (R n I v m : Nat) (hI : R ∣ I * n + 1) (hm : m = (v % R * I) % R) : R ∣ v + m * n := by
  have h1 : (R : ℤ) ∣ (m : ℤ) - (v : ℤ) * (I : ℤ) := by
    have := int_dvd_of_mod (x := m) (y := v * I) (m := R) (by rw [hm, Nat.mod_mod, Nat.mod_mul_mod])
    push_cast at this; exact this
  have h2 : (R : ℤ) ∣ (I : ℤ) * (n : ℤ) + 1 := by exact_mod_cast hI
  have h3 : (R : ℤ) ∣ (v : ℤ) + (m : ℤ) * (n : ℤ) := by
    have : (v : ℤ) + (m : ℤ) * (n : ℤ) = ((m : ℤ) - (v : ℤ) * (I : ℤ)) * (n : ℤ) + (v : ℤ) * ((I : ℤ) * (n : ℤ) + 1) := by ring
    rw [this]; exact dvd_add (Dvd.dvd.mul_right h1 _) (Dvd.dvd.mul_left h2 _)
  exact_mod_cast h3

/-- REDC, exactly: the carry `c` of `v + m n` decides whether `n` is subtracted. -/
theorem redc_spec (w : Nat) (N Ninv v : List U32) (hN : N.length = w) (hI : Ninv.length = w)
    (hinv : 2 ^ (32 * w) ∣ value Ninv * value N + 1) (hv : v.length = 2 * w) :
    ∃ t m c, redc (32 * w) N Ninv v = .ok t ∧ t.length = w ∧ m < 2 ^ (32 * w) ∧ c ≤ 1 ∧
      value t * 2 ^ (32 * w) + c * (value N * 2 ^ (32 * w)) = value v + m * value N ∧
      (c = 1 ↔ 2 ^ (32 * w) * 2 ^ (32 * w) ≤ value v + m * value N) := by
  have e2 : bnN (2 * (32 * w)) = 2 * w := by rw [two_mul32, bnN_mul32]
  have hroom : 2 * bnN (32 * w) ≤ bnN (2 * (32 * w)) := by rw [e2, bnN_mul32]
  obtain ⟨v0, e1, l1, v1⟩ := bnSlice_value (32 * w) v 0 (by rw [bnN_mul32]; omega)
  rw [bnN_mul32] at l1 v1
  simp only [Nat.zero_div, Nat.mul_zero, pow_zero, Nat.div_one] at v1
  obtain ⟨vn, e3, l3, v3⟩ := bnMul_spec (32 * w) v0 Ninv (by rw [bnN_mul32]; exact l1) (by rw [bnN_mul32]; exact hI) hroom
  rw [e2] at l3
  obtain ⟨m, e4, l4, v4⟩ := bnSlice_value (32 * w) vn 0 (by rw [bnN_mul32]; omega)
  rw [bnN_mul32] at l4 v4
  simp only [Nat.zero_div, Nat.mul_zero, pow_zero, Nat.div_one] at v4
  obtain ⟨mn, e5, l5, v5⟩ := bnMul_spec (32 * w) m N (by rw [bnN_mul32]; exact l4) (by rw [bnN_mul32]; exact hN) hroom
  rw [e2] at l5
  have hadd := bnAdd_spec v mn (by omega)
  have ladd := bnAdd_length v mn (by omega)
  obtain ⟨t, e6, l6, v6⟩ := bnSlice_value (32 * w) (bnAdd v mn).2 (32 * w) (by rw [bnN_mul32, Nat.mul_div_cancel_left _ (by decide)]; omega)
  rw [bnN_mul32] at l6 v6
  rw [Nat.mul_div_cancel_left _ (by decide)] at v6
  have hsub := bnSub_spec t N (by omega)
  have lsub := bnSub_length t N (by omega)
  have vlt := value_lt v
  have mlt := value_lt m
  have nlt := value_lt N
  have tlt := value_lt t
  have slt := value_lt (bnAdd v mn).2
  have t2lt := value_lt (bnSub t N).2
  have hdvd := redc_dvd (2 ^ (32 * w)) (value N) (value Ninv) (value v) (value m) hinv (by rw [v4, v3, v1])
  have e : redc (32 * w) N Ninv v = .ok (if (bnAdd v mn).1 then (bnSub t N).2 else t) := by
    rw [redc, e1, loop_ok_bind, e3, loop_ok_bind, e4, loop_ok_bind, e5, loop_ok_bind]
    dsimp only
    rw [e6, loop_ok_bind]; rfl
  have hR : 2 ^ (32 * (2 * w)) = 2 ^ (32 * w) * 2 ^ (32 * w) := by rw [← pow_add]; congr 1; ring
  rw [hv, hR] at vlt hadd
  rw [ladd, hv, hR] at slt
  rw [l4] at mlt
  rw [hN] at nlt
  rw [l6] at tlt hsub
  rw [lsub, l6] at t2lt
  rw [v5] at hadd
  set R := 2 ^ (32 * w) with hRdef
  have hRpos : 0 < R := by positivity
  rw [Nat.mod_eq_of_lt (by rw [Nat.div_lt_iff_lt_mul hRpos]; exact slt)] at v6
  obtain ⟨q, hq⟩ := hdvd
  -- the sum modulo R² is a multiple of R
  have hbound : value m * value N ≤ (R - 1) * value N := Nat.mul_le_mul_right _ (by omega)
  cases hc : (bnAdd v mn).1
  · rw [hc] at hadd e
    simp only [Bool.false_eq_true, if_false, Nat.mul_zero, Nat.add_zero] at hadd e
    refine ⟨t, value m, 0, e, l6, mlt, by omega, ?_, ?_⟩
    · rw [Nat.zero_mul, Nat.add_zero, v6, hadd, hq, Nat.mul_div_cancel_left _ hRpos]; ring
    · constructor
      · intro h; omega
      · intro h; omega
  · rw [hc] at hadd e
    simp only [if_true, Nat.mul_one] at hadd e
    have hq2 : value (bnAdd v mn).2 = R * (q - R) := by
      rw [Nat.mul_sub]; omega
    have ht : value t = q - R := by rw [v6, hq2, Nat.mul_div_cancel_left _ hRpos]
    have hqR : R ≤ q := by
      by_contra hcon
      have : R * q < R * R := Nat.mul_lt_mul_of_pos_left (by omega) hRpos
      omega
    have htn : value t < value N := by
      rw [ht]
      have h1 : R * q < R * R + R * value N := by
        rw [← hq]
        have h2 : (R - 1) * value N ≤ R * value N := Nat.mul_le_mul_right _ (by omega)
        omega
      rw [← Nat.mul_add] at h1
      have := Nat.lt_of_mul_lt_mul_left h1
      omega
    have hbor := (bnSub_borrow t N (by omega)).mpr htn
    rw [hbor] at hsub
    simp only [if_true, Nat.mul_one] at hsub
    refine ⟨(bnSub t N).2, value m, 1, e, by omega, mlt, le_refl _, ?_, ?_⟩
    · have : value (bnSub t N).2 + value N = q := by omega
      rw [Nat.one_mul, ← Nat.add_mul, this, hq, Nat.mul_comm]
    · simp only [true_iff]; omega

/-- a usable Montgomery state for the modulus `value st.N` -/
structure MontOk (w : Nat) (st : MontState) : Prop where
  hw : 0 < w
  lN : st.N.length = w
  odd : value st.N % 2 = 1
  lI : st.Ninv.length = w
  inv : 2 ^ (32 * w) ∣ value st.Ninv * value st.N + 1
  l2 : st.R2MN.length = w
  v2 : value st.R2MN = (2 ^ (32 * w) * 2 ^ (32 * w)) % value st.N

theorem redc_zmod {w : Nat} {st : MontState} (ok : MontOk w st) (v : List U32) (hv : v.length = 2 * w) :
    ∃ t, redc (32 * w) st.N st.Ninv v = .ok t ∧ t.length = w ∧
      (value t : ZMod (value st.N)) * 2 ^ (32 * w) = (value v : ZMod (value st.N)) := by
  obtain ⟨t, m, c, e, l, _, _, h, _⟩ := redc_spec w st.N st.Ninv v ok.lN ok.lI ok.inv hv
  refine ⟨t, e, l, ?_⟩
  have := congrArg (fun x : ℕ => (x : ZMod (value st.N))) h
  push_cast at this
  simpa using this

theorem isUnit_R {w : Nat} {st : MontState} (ok : MontOk w st) : IsUnit ((2 : ZMod (value st.N)) ^ (32 * w)) := by
  have h : Nat.Coprime (2 ^ (32 * w)) (value st.N) := by
    apply Nat.Coprime.pow_left
    rw [Nat.coprime_two_left]
    exact Nat.odd_iff.mpr ok.odd
  have := (ZMod.isUnit_iff_coprime (2 ^ (32 * w)) (value st.N)).mpr h
  push_cast at this
  exact this

theorem bnMul_w (w : Nat) (a b : List U32) (ha : a.length = w) (hb : b.length = w) :
    ∃ x, bnMul (32 * w) a b = .ok x ∧ x.length = 2 * w ∧ value x = value a * value b := by
  have e2 : bnN (2 * (32 * w)) = 2 * w := by rw [two_mul32, bnN_mul32]
  obtain ⟨x, h1, h2, h3⟩ := bnMul_spec (32 * w) a b (by rw [bnN_mul32]; exact ha) (by rw [bnN_mul32]; exact hb) (by rw [e2, bnN_mul32])
  exact ⟨x, h1, by rw [h2, e2], h3⟩

theorem bnConvert_up (w : Nat) (a : List U32) (ha : a.length = w) :
    (bnConvert (2 * (32 * w)) (32 * w) a).length = 2 * w ∧ value (bnConvert (2 * (32 * w)) (32 * w) a) = value a := by
  refine ⟨by rw [bnConvert_length, two_mul32, bnN_mul32], ?_⟩
  rw [bnConvert_value _ _ _ (by rw [bnN_mul32]; exact ha), Nat.min_eq_left (by omega), Nat.mul_div_cancel_left _ (by decide)]
  apply Nat.mod_eq_of_lt
  have := value_lt a
  rwa [ha] at this

theorem montOf_zmod {w : Nat} {st : MontState} (ok : MontOk w st) (x : List U32) (hx : x.length = w) :
    ∃ t, montOf (32 * w) st x = .ok t ∧ t.length = w ∧ (value t : ZMod (value st.N)) = value x * 2 ^ (32 * w) := by
  obtain ⟨p, e1, l1, v1⟩ := bnMul_w w x st.R2MN hx ok.l2
  obtain ⟨t, e2, l2, v2⟩ := redc_zmod ok p l1
  refine ⟨t, by rw [montOf, e1, loop_ok_bind]; exact e2, l2, ?_⟩
  apply (isUnit_R ok).mul_right_cancel
  rw [v2, v1, ok.v2, Nat.cast_mul, ZMod.natCast_mod]
  push_cast
  ring

theorem montMul_zmod {w : Nat} {st : MontState} (ok : MontOk w st) (a b : List U32) (ha : a.length = w) (hb : b.length = w) :
    ∃ t, montMul (32 * w) st a b = .ok t ∧ t.length = w ∧
      (value t : ZMod (value st.N)) * 2 ^ (32 * w) = value a * value b := by
  obtain ⟨p, e1, l1, v1⟩ := bnMul_w w b a hb ha
  obtain ⟨t, e2, l2, v2⟩ := redc_zmod ok p l1
  refine ⟨t, by rw [montMul, e1, loop_ok_bind]; exact e2, l2, ?_⟩
  rw [v2, v1]; push_cast; ring

theorem montSquare_zmod {w : Nat} {st : MontState} (ok : MontOk w st) (a : List U32) (ha : a.length = w) :
    ∃ t, montSquare (32 * w) st a = .ok t ∧ t.length = w ∧
      (value t : ZMod (value st.N)) * 2 ^ (32 * w) = value a * value a := by
  obtain ⟨p, e1, l1, v1⟩ := bnMul_w w a a ha ha
  obtain ⟨t, e2, l2, v2⟩ := redc_zmod ok p l1
  refine ⟨t, by rw [montSquare, bnSquare, e1, loop_ok_bind]; exact e2, l2, ?_⟩
  rw [v2, v1]; push_cast; ring

theorem montTo_spec {w : Nat} {st : MontState} (ok : MontOk w st) (a : List U32) (ha : a.length = w) :
    ∃ y, montTo (32 * w) st a = .ok y ∧ y.length = w ∧ (value y : ZMod (value st.N)) * 2 ^ (32 * w) = value a ∧
      value y ≤ value st.N ∧ (value y = 0 ↔ value a = 0) := by
  obtain ⟨l1, v1⟩ := bnConvert_up w a ha
  obtain ⟨t, m, c, e, l, hm, hc, h, hc2⟩ := redc_spec w st.N st.Ninv _ ok.lN ok.lI ok.inv l1
  obtain ⟨t', e', l', v'⟩ := redc_zmod ok _ l1
  have : t = t' := by
    have := e.symm.trans e'; exact Except.ok.inj this
  subst this
  rw [v1] at h v' hc2
  have alt := value_lt a
  have nlt := value_lt st.N
  rw [ha] at alt
  rw [ok.lN] at nlt
  have hodd := ok.odd
  set R := 2 ^ (32 * w) with hR
  have hRpos : 0 < R := by positivity
  set n := value st.N with hn
  have htot : value a + m * n < R * (n + 1) := by
    have : m * n ≤ (R - 1) * n := Nat.mul_le_mul_right _ (by omega)
    have h2 : (R - 1) * n + n = R * n := by rw [← Nat.succ_mul]; congr 1; omega
    rw [Nat.mul_add]; omega
  have hc0 : c = 0 := by
    by_contra hcon
    have := hc2.mp (by omega)
    have h3 : R * (n + 1) ≤ R * R := Nat.mul_le_mul_left _ (by omega)
    omega
  rw [hc0, Nat.zero_mul, Nat.add_zero] at h
  refine ⟨t, e, l, v', ?_, ?_⟩
  · have h4 : value t * R < (n + 1) * R := by rw [h, Nat.mul_comm (n + 1)]; exact htot
    have := Nat.lt_of_mul_lt_mul_right h4
    omega
  · constructor
    · intro h0
      rw [h0, Nat.zero_mul] at h
      omega
    · intro h0
      -- a = 0: m n is a multiple of R, n odd, m < R, hence m = 0
      rw [h0, Nat.zero_add] at h
      have hdv : R ∣ m := by
        have h1 : R ∣ m * n := ⟨value t, by rw [← h]; ring⟩
        have hcop : Nat.Coprime R n := by
          rw [hR]; apply Nat.Coprime.pow_left; rw [Nat.coprime_two_left]; exact Nat.odd_iff.mpr hodd
        exact hcop.dvd_of_dvd_mul_right h1
      have hm0 : m = 0 := Nat.eq_zero_of_dvd_of_lt hdv hm
      rw [hm0, Nat.zero_mul] at h
      rcases Nat.mul_eq_zero.mp h with h5 | h5
      · exact h5
      · omega

/-- The state constructor succeeds for every odd modulus. -/
theorem montNew_spec (w : Nat) (hw : 0 < w) (N : List U32) (hN : N.length = w) (hodd : value N % 2 = 1) :
    ∃ st, montNew (32 * w) N = .ok st ∧ st.N = N ∧ MontOk w st ∧ st.R1MN.length = w ∧ st.R3MN.length = w ∧
      (value st.R1MN : ZMod (value N)) = 2 ^ (32 * w) ∧ (value st.R3MN : ZMod (value N)) = (2 ^ (32 * w)) ^ 3 := by
  obtain ⟨inv, e1, l1, d1⟩ := recInv_spec w hw N hN hodd
  obtain ⟨l2, v2⟩ := bnNeg_value inv
  obtain ⟨l3, v3⟩ := bnOfU32_spec (32 * w) (by omega) 1#32
  rw [bnN_mul32] at l3
  have hadd := bnAdd_spec (bnNeg inv) (bnOfU32 (32 * w) 1#32) (by omega)
  have ladd := bnAdd_length (bnNeg inv) (bnOfU32 (32 * w) 1#32) (by omega)
  set Ninv := (bnAdd (bnNeg inv) (bnOfU32 (32 * w) 1#32)).2 with hNinv
  have hNinvd : 2 ^ (32 * w) ∣ value Ninv * value N + 1 := by
    have hz : ((2:ℤ) ^ (32 * w)) ∣ (value Ninv : ℤ) + (value inv : ℤ) := by
      rw [v3, l2, l1, show BitVec.toNat 1#32 = 1 by rfl] at hadd
      rw [l1] at v2
      have hp : 0 < 2 ^ (32 * w) := by positivity
      have h1 : value Ninv + value inv + 2 ^ (32 * w) * (if (bnAdd (bnNeg inv) (bnOfU32 (32 * w) 1#32)).1 = true then 1 else 0) = 2 ^ (32 * w) := by omega
      have h2 : ((value Ninv + value inv + 2 ^ (32 * w) * (if (bnAdd (bnNeg inv) (bnOfU32 (32 * w) 1#32)).1 = true then 1 else 0) : ℕ) : ℤ) = ((2 ^ (32 * w) : ℕ) : ℤ) := by rw [h1]
      push_cast at h2
      refine ⟨1 - (if (bnAdd (bnNeg inv) (bnOfU32 (32 * w) 1#32)).1 = true then 1 else 0), ?_⟩
      rw [mul_sub, mul_one]
      linarith
    have : ((2:ℤ) ^ (32 * w)) ∣ (value Ninv : ℤ) * (value N : ℤ) + 1 := by
      have he : (value Ninv : ℤ) * (value N : ℤ) + 1 = ((value Ninv : ℤ) + (value inv : ℤ)) * (value N : ℤ) - ((value inv : ℤ) * (value N : ℤ) - 1) := by ring
      rw [he]; exact dvd_sub (Dvd.dvd.mul_right hz _) d1
    exact_mod_cast this
  have eN : bnN (2 * (32 * w) + 1) = 2 * w + 1 := by unfold bnN; omega
  obtain ⟨l4, v4⟩ := bnOfU32_spec (2 * (32 * w) + 1) (by omega) 0#32
  rw [eN] at l4
  obtain ⟨R, e5, l5, v5⟩ := bnSetBit_spec (bnOfU32 (2 * (32 * w) + 1) 0#32) (2 * (32 * w)) (by rw [l4]; omega)
  rw [v4, show BitVec.toNat 0#32 = 0 by rfl, Nat.zero_or] at v5
  rw [l4] at l5
  have nlt := value_lt N
  rw [hN] at nlt
  have n0 : value N ≠ 0 := by omega
  obtain ⟨sh, _, s1, s2⟩ := shift_exists (2 * w + 1) (value N) n0 (lt_of_lt_of_le nlt (Nat.pow_le_pow_right (by decide) (by omega)))
  have emin : 32 * (min (32 * w) (2 * (32 * w) + 1) / 32) = 32 * w := by rw [Nat.min_eq_left (by omega), Nat.mul_div_cancel_left _ (by decide)]
  obtain ⟨R2, e6, l6, v6⟩ := bnNaiveReduce_spec (2 * (32 * w) + 1) (32 * w) R N (by rw [eN]; exact l5) (by rw [bnN_mul32]; exact hN) n0
    (by rw [emin]; exact nlt) sh (by rw [eN]; exact s1) (by rw [eN]; exact s2)
  rw [bnN_mul32] at l6
  have hRle : value R ≤ value N * 2 ^ (32 * sh) := by
    rw [v5]; refine le_trans (Nat.pow_le_pow_right (by decide) (by omega)) s1
  have hpos : 0 < value N * 2 ^ (32 * sh) := Nat.mul_pos (by omega) (by positivity)
  rw [if_pos (by omega), emin, Nat.mod_eq_of_lt (lt_trans (Nat.mod_lt _ (by omega)) nlt), v5,
    show 2 * (32 * w) = 32 * w + 32 * w by ring, pow_add] at v6
  have ok : ∀ a b, MontOk w ⟨N, Ninv, a, R2, b⟩ := fun a b =>
    { hw := hw, lN := hN, odd := hodd, lI := by rw [ladd, l2, l1], inv := hNinvd, l2 := l6, v2 := v6 }
  obtain ⟨lc, vc⟩ := bnConvert_up w R2 l6
  obtain ⟨R1, e7, l7, v7⟩ := redc_zmod (ok [] []) _ lc
  obtain ⟨sq, e8, l8, v8⟩ := bnMul_w w R2 R2 l6 l6
  obtain ⟨R3, e9, l9, v9⟩ := redc_zmod (ok [] []) _ l8
  refine ⟨⟨N, Ninv, R1, R2, R3⟩, ?_, rfl, ok _ _, l7, l9, ?_, ?_⟩
  · rw [montNew, e1, loop_ok_bind]
    dsimp only
    rw [e5, loop_ok_bind, e6, loop_ok_bind]
    rw [show redc (32 * w) N Ninv (bnConvert (2 * (32 * w)) (32 * w) R2) = .ok R1 from e7, loop_ok_bind, e8, loop_ok_bind,
      show redc (32 * w) N Ninv sq = .ok R3 from e9]
    rfl
  · apply (isUnit_R (ok [] [])).mul_right_cancel
    simp only at v7 ⊢
    rw [v7, vc, v6]; push_cast; simp
  · apply (isUnit_R (ok [] [])).mul_right_cancel
    simp only at v9 ⊢
    rw [v9, v8, v6]; push_cast; simp; ring

/-! ### Exponentiation -/

theorem testBit_sum (e k : Nat) : e % 2 ^ (k + 1) = e % 2 ^ k + 2 ^ k * (if e.testBit k then 1 else 0) := by
  rw [Nat.testBit_eq_decide_div_mod_eq, pow_succ, Nat.mod_mul]
  rcases Nat.mod_two_eq_zero_or_one (e / 2 ^ k) with h | h <;> simp [h]

/-- The square-and-multiply loop. Everything is stated about the represented residues `x = value · R⁻¹`. -/
theorem montExp_zmod {w : Nat} {st : MontState} (ok : MontOk w st) (a e : List U32) (ha : a.length = w) (he : e.length = w) (x : ZMod (value st.N))
    (hx : (value a : ZMod (value st.N)) = x * 2 ^ (32 * w)) :
    ∃ t, montExp (32 * w) st a e = .ok t ∧ t.length = w ∧ (value t : ZMod (value st.N)) = x ^ (value e) * 2 ^ (32 * w) := by
  have hw := ok.hw
  obtain ⟨l1, v1⟩ := bnOfU32_spec (32 * w) (by omega) 1#32
  rw [bnN_mul32] at l1
  obtain ⟨one, e2, l2, v2⟩ := montOf_zmod ok _ l1
  rw [v1, show BitVec.toNat 1#32 = 1 by rfl] at v2
  obtain ⟨⟨v, b⟩, e3, l3, l4, v3, v4⟩ := loop_inv (n := 32 * w) (s := (one, a)) (body := fun (v, b) n => do
      let ev ← bnBit e n
      let v ← montMul (32 * w) st v (if ev != 0#32 then b else one)
      let b ← montSquare (32 * w) st b
      return (v, b))
    (fun k s => s.1.length = w ∧ s.2.length = w ∧ (value s.1 : ZMod (value st.N)) = x ^ (value e % 2 ^ k) * 2 ^ (32 * w) ∧
      (value s.2 : ZMod (value st.N)) = x ^ (2 ^ k) * 2 ^ (32 * w))
    (by
      refine ⟨l2, ha, ?_, ?_⟩
      · simp only [pow_zero, Nat.mod_one]; rw [v2]; push_cast; ring
      · simp only [pow_zero, pow_one]; exact hx)
    (by
      rintro k hk ⟨v, b⟩ ⟨h1, h2, h3, h4⟩
      simp only at h1 h2 h3 h4
      simp only
      rw [bnBit_spec e k (by omega), loop_ok_bind]
      set c := (if (if (value e).testBit k then 1#32 else 0#32) != 0#32 then b else one) with hc
      have lc : c.length = w := by rw [hc]; split <;> assumption
      have vc : (value c : ZMod (value st.N)) = x ^ (2 ^ k * (if (value e).testBit k then 1 else 0)) * 2 ^ (32 * w) := by
        rw [hc]
        cases (value e).testBit k
        · simp [v2]
        · simp [h4]
      obtain ⟨t, et, lt, vt⟩ := montMul_zmod ok v c h1 lc
      obtain ⟨b', eb, lb, vb⟩ := montSquare_zmod ok b h2
      rw [et, loop_ok_bind, eb, loop_ok_bind]
      refine ⟨_, rfl, lt, lb, ?_, ?_⟩
      · simp only
        apply (isUnit_R ok).mul_right_cancel
        rw [vt, h3, vc, testBit_sum, pow_add]; ring
      · simp only
        apply (isUnit_R ok).mul_right_cancel
        rw [vb, h4, show 2 ^ (k + 1) = 2 ^ k + 2 ^ k by ring, pow_add x]; ring)
  refine ⟨v, ?_, l3, ?_⟩
  · rw [montExp, e2, loop_ok_bind, e3, loop_ok_bind]; rfl
  · simp only at v3
    rw [v3, Nat.mod_eq_of_lt]
    have := value_lt e
    rwa [he] at this

theorem montExp32_zmod {w : Nat} {st : MontState} (ok : MontOk w st) (a : List U32) (ev : U32) (ha : a.length = w) (x : ZMod (value st.N))
    (hx : (value a : ZMod (value st.N)) = x * 2 ^ (32 * w)) :
    ∃ t, montExp32 (32 * w) st a ev = .ok t ∧ t.length = w ∧ (value t : ZMod (value st.N)) = x ^ 65537 * 2 ^ (32 * w) := by
  have hw := ok.hw
  obtain ⟨l1, v1⟩ := bnOfU32_spec (32 * w) (by omega) 1#32
  rw [bnN_mul32] at l1
  obtain ⟨one, e2, l2, v2⟩ := montOf_zmod ok _ l1
  obtain ⟨b, e3, l3, v3⟩ := loop_inv (n := 16) (s := a) (body := fun b _ => montSquare (32 * w) st b)
    (fun k b => b.length = w ∧ (value b : ZMod (value st.N)) = x ^ (2 ^ k) * 2 ^ (32 * w))
    (by
      refine ⟨ha, ?_⟩
      simp only [pow_zero, pow_one]; exact hx)
    (by
      rintro k hk b ⟨h2, h4⟩
      obtain ⟨b', eb, lb, vb⟩ := montSquare_zmod ok b h2
      refine ⟨b', eb, lb, ?_⟩
      apply (isUnit_R ok).mul_right_cancel
      rw [vb, h4, show 2 ^ (k + 1) = 2 ^ k + 2 ^ k by ring, pow_add x]; ring)
  obtain ⟨t, et, lt, vt⟩ := montMul_zmod ok b a l3 ha
  refine ⟨t, ?_, lt, ?_⟩
  · rw [montExp32, e2, loop_ok_bind, e3, loop_ok_bind]; exact et
  · apply (isUnit_R ok).mul_right_cancel
    rw [vt, v3, hx, show 65537 = 2 ^ 16 + 1 by norm_num, pow_succ x (2 ^ 16)]; ring

end Verif.Proof

namespace Verif.Proof
open Verif.Model Verif.Spec

/-- REDC gives zero for zero only. -/
theorem redc_zero {w : Nat} {st : MontState} (ok : MontOk w st) (v t : List U32) (hv : v.length = 2 * w)
    (ht : redc (32 * w) st.N st.Ninv v = .ok t) : value t = 0 ↔ value v = 0 := by
  obtain ⟨t', m, c, e, l, hm, hc, h, hc2⟩ := redc_spec w st.N st.Ninv v ok.lN ok.lI ok.inv hv
  obtain rfl : t' = t := Except.ok.inj (e.symm.trans ht)
  have nlt := value_lt st.N
  rw [ok.lN] at nlt
  have hodd := ok.odd
  set R := 2 ^ (32 * w) with hR
  have hRpos : 0 < R := by positivity
  have hnR : value st.N * R < R * R := Nat.mul_lt_mul_of_pos_right nlt hRpos
  have hc0 : value t' = 0 → c = 0 := by
    intro h0
    by_contra hcon
    have h1 : c = 1 := by omega
    have := hc2.mp h1
    rw [h0, h1] at h
    omega
  constructor
  · intro h0
    rw [h0, hc0 h0] at h
    omega
  · intro h0
    rw [h0, Nat.zero_add] at h hc2
    have hdv : R ∣ m := by
      have h1 : R ∣ m * value st.N := ⟨value t' + c * value st.N, by rw [← h]; ring⟩
      have hcop : Nat.Coprime R (value st.N) := by
        rw [hR]; apply Nat.Coprime.pow_left; rw [Nat.coprime_two_left]; exact Nat.odd_iff.mpr hodd
      exact hcop.dvd_of_dvd_mul_right h1
    have hm0 : m = 0 := Nat.eq_zero_of_dvd_of_lt hdv hm
    rw [hm0, Nat.zero_mul] at h
    have h6 : value t' * R = 0 := by omega
    rcases Nat.mul_eq_zero.mp h6 with h5 | h5
    · exact h5
    · omega

theorem montOf_zero {w : Nat} {st : MontState} (ok : MontOk w st) (hn : 1 < value st.N) (x t : List U32) (hx : x.length = w)
    (ht : montOf (32 * w) st x = .ok t) : value t = 0 ↔ value x = 0 := by
  obtain ⟨p, e1, l1, v1⟩ := bnMul_w w x st.R2MN hx ok.l2
  rw [montOf, e1, loop_ok_bind] at ht
  rw [redc_zero ok p t l1 ht, v1, Nat.mul_eq_zero, or_iff_left]
  rw [ok.v2]
  intro h
  have hd : value st.N ∣ 2 ^ (32 * w) * 2 ^ (32 * w) := Nat.dvd_of_mod_eq_zero h
  have hcop : Nat.Coprime (2 ^ (32 * w) * 2 ^ (32 * w)) (value st.N) := by
    rw [← pow_add]; apply Nat.Coprime.pow_left; rw [Nat.coprime_two_left]; exact Nat.odd_iff.mpr ok.odd
  have := Nat.eq_one_of_dvd_coprimes hcop hd dvd_rfl
  omega

/-- A number at most `n` that is congruent to `x`, and zero exactly when `x` is, is determined. -/
theorem canon {n y x : Nat} (hle : y ≤ n) (hc : y % n = x % n) (hz : y = 0 ↔ x = 0) :
    y = if x ≠ 0 ∧ n ∣ x then n else x % n := by
  by_cases hx : x = 0
  · rw [if_neg (by simp [hx]), hz.mpr hx, hx]; simp
  rcases Nat.lt_or_ge y n with h | h
  · rw [Nat.mod_eq_of_lt h] at hc
    rw [if_neg, hc]
    rintro ⟨_, hd⟩
    rw [Nat.mod_eq_zero_of_dvd hd] at hc
    exact hx (hz.mp hc)
  · have : y = n := by omega
    rw [this, Nat.mod_self] at hc
    rw [if_pos ⟨hx, Nat.dvd_of_mod_eq_zero hc.symm⟩, this]

theorem zmod_mod {n a b : Nat} (h : (a : ZMod n) = (b : ZMod n)) : a % n = b % n :=
  (ZMod.natCast_eq_natCast_iff' a b n).mp h

end Verif.Proof
