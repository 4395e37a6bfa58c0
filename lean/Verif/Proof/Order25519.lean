import Verif.Proof.X25519Curve
import Verif.Proof.PrimeOrder
import Mathlib.FieldTheory.Finite.Basic
import Mathlib.GroupTheory.OrderOfElement

/-! The number of points of curve25519 and of its twist. -/

namespace Verif.Proof
open Verif.Spec

/-- An algebraically closed field over which every `u` has a point. -/
abbrev Kc := AlgebraicClosure (ZMod p25519)

noncomputable instance : DecidableEq Kc := Classical.decEq _

/-- Points of the curve over the algebraic closure. -/
abbrev Pt := (curve25519 Kc).Point

theorem frob_exists (W : WeierstrassCurve.Affine Kc) (h : (curve25519 (ZMod p25519)).map (algebraMap (ZMod p25519) Kc) = W) :
    ∃ φ : W.Point →+ W.Point, ∀ x y hxy, ∃ h', φ (.some x y hxy) = .some (x ^ p25519) (y ^ p25519) h' := by
  subst h
  refine ⟨WeierstrassCurve.Affine.Point.map (W' := curve25519 (ZMod p25519)) (FiniteField.frobeniusAlgHom (ZMod p25519) Kc), ?_⟩
  intro x y hxy
  have e : ∀ z : Kc, FiniteField.frobeniusAlgHom (ZMod p25519) Kc z = z ^ p25519 := by
    intro z
    rw [FiniteField.coe_frobeniusAlgHom, ZMod.card]
  have := WeierstrassCurve.Affine.Point.map_some (W' := curve25519 (ZMod p25519)) (FiniteField.frobeniusAlgHom (ZMod p25519) Kc) hxy
  rw [← e x, ← e y]
  exact ⟨_, this⟩

theorem curve_map : (curve25519 (ZMod p25519)).map (algebraMap (ZMod p25519) Kc) = curve25519 Kc := by
  ext <;> simp [curve25519]
  exact map_ofNat _ 486662

theorem frob_some : ∃ φ : Pt →+ Pt, ∀ x y hxy, ∃ h', φ (.some x y hxy) = .some (x ^ p25519) (y ^ p25519) h' :=
  frob_exists _ curve_map

/-- The Frobenius endomorphism. -/
noncomputable def frob : Pt →+ Pt := frob_some.choose

theorem frob_apply (x y : Kc) (h) : ∃ h', frob (.some x y h) = .some (x ^ p25519) (y ^ p25519) h' := frob_some.choose_spec x y h

/-- Points with coordinates in the prime field. -/
noncomputable def Hp : AddSubgroup Pt := (frob - AddMonoidHom.id Pt).ker
/-- Points of the twist. -/
noncomputable def Hm : AddSubgroup Pt := (frob + AddMonoidHom.id Pt).ker

theorem mem_Hp (P : Pt) : P ∈ Hp ↔ frob P = P := by
  rw [Hp, AddMonoidHom.mem_ker, AddMonoidHom.sub_apply, AddMonoidHom.id_apply, sub_eq_zero]
theorem mem_Hm (P : Pt) : P ∈ Hm ↔ frob P = -P := by
  rw [Hm, AddMonoidHom.mem_ker, AddMonoidHom.add_apply, AddMonoidHom.id_apply, add_eq_zero_iff_eq_neg]

theorem neg_some' (x y : Kc) (h) : ∃ h', -(.some x y h : Pt) = .some x (-y) h' := by
  have e : (curve25519 Kc).negY x y = -y := by simp [WeierstrassCurve.Affine.negY, curve25519]
  rw [WeierstrassCurve.Affine.Point.neg_some]
  rw [← e]
  exact ⟨_, rfl⟩

/-- fixed points of the Frobenius map of the field -/
theorem fixed_iff (x : Kc) : x ^ p25519 = x ↔ ∃ u : ZMod p25519, algebraMap _ _ u = x := by
  have : CharP Kc p25519 := charP_of_injective_algebraMap (algebraMap (ZMod p25519) Kc).injective p25519
  constructor
  · intro h
    have h1 := (Subfield.mem_bot_iff_pow_eq_self Kc p25519).mpr h
    have h2 : x ∈ (algebraMap (ZMod p25519) Kc).fieldRange := (bot_le : (⊥ : Subfield Kc) ≤ _) h1
    obtain ⟨u, hu⟩ := h2
    exact ⟨u, hu⟩
  · rintro ⟨u, rfl⟩
    rw [← map_pow, ZMod.pow_card]

theorem point_cases (u : ZMod p25519) (v : Kc) (h : (curve25519 Kc).Nonsingular (algebraMap _ _ u) v) : (.some _ v h : Pt) ∈ Hp ∨ (.some _ v h : Pt) ∈ Hm := by
  obtain ⟨h', e⟩ := frob_apply _ v h
  have hx : (algebraMap (ZMod p25519) Kc u) ^ p25519 = algebraMap (ZMod p25519) Kc u := (fixed_iff _).mpr ⟨u, rfl⟩
  rw [mem_Hp, mem_Hm]
  have : uCoord (frob (.some _ v h)) = uCoord (.some _ v h : Pt) := by rw [e]; exact hx
  generalize frob (.some _ v h) = Q at e this ⊢
  subst e
  have := (WeierstrassCurve.Affine.Point.X_eq_iff (h₁ := h') (h₂ := h)).mp hx
  exact this

/-- A point with the given `u`. -/
noncomputable def ptOf (u : ZMod p25519) : Pt := .some _ (exists_point u).choose (exists_point u).choose_spec

/-- All points with `u` in the prime field. -/
noncomputable def ptEnum : Option (ZMod p25519 × Bool) → Pt
  | none => 0
  | some (u, b) => if b then ptOf u else -ptOf u

theorem enum_all (u : ZMod p25519) (v : Kc) (h : (curve25519 Kc).Nonsingular (algebraMap _ _ u) v) : ∃ i, ptEnum i = (.some _ v h : Pt) := by
  rcases (WeierstrassCurve.Affine.Point.X_eq_iff (h₁ := h) (h₂ := (exists_point u).choose_spec)).mp rfl with e | e
  · exact ⟨some (u, true), e.symm⟩
  · exact ⟨some (u, false), e.symm⟩

/-- The group elements of either kind are finite in number. -/
theorem card_bound (H : AddSubgroup Pt) (hH : ∀ x y h, (.some x y h : Pt) ∈ H → x ^ p25519 = x) : Finite H ∧ Nat.card H ≤ 2 * p25519 + 1 := by
  have hsub : (H : Set Pt) ⊆ Set.range ptEnum := by
    intro P hP
    cases P with
    | zero => exact ⟨none, rfl⟩
    | some x y h =>
      obtain ⟨u, rfl⟩ := (fixed_iff x).mp (hH x y h hP)
      exact enum_all u y h
  have hf : (H : Set Pt).Finite := (Set.finite_range ptEnum).subset hsub
  refine ⟨hf, ?_⟩
  have h1 : Nat.card H ≤ Nat.card (Set.range ptEnum) := Nat.card_mono (Set.finite_range ptEnum) hsub
  have h2 : Nat.card (Set.range ptEnum) ≤ Nat.card (Option (ZMod p25519 × Bool)) := Finite.card_range_le ptEnum
  have h3 : Nat.card (Option (ZMod p25519 × Bool)) = 2 * p25519 + 1 := by
    rw [Finite.card_option, Nat.card_prod, Nat.card_zmod, Nat.card_eq_fintype_card, Fintype.card_bool, Nat.mul_comm]
  omega

theorem Hp_coord (x y : Kc) (h) (hm : (.some x y h : Pt) ∈ Hp) : x ^ p25519 = x := by
  obtain ⟨h', e⟩ := frob_apply x y h
  rw [mem_Hp, e] at hm
  exact (WeierstrassCurve.Affine.Point.some.inj hm).1

theorem Hm_coord (x y : Kc) (h) (hm : (.some x y h : Pt) ∈ Hm) : x ^ p25519 = x := by
  obtain ⟨h', e⟩ := frob_apply x y h
  obtain ⟨h'', e'⟩ := neg_some' x y h
  rw [mem_Hm, e, e'] at hm
  exact (WeierstrassCurve.Affine.Point.some.inj hm).1

theorem Hp_card : Finite Hp ∧ Nat.card Hp ≤ 2 * p25519 + 1 := card_bound _ Hp_coord
theorem Hm_card : Finite Hm ∧ Nat.card Hm ≤ 2 * p25519 + 1 := card_bound _ Hm_coord

theorem rep_zero_iff {x z : Kc} {Q : Pt} (h : Rep x z Q) : z = 0 ↔ Q = 0 := by
  cases Q with
  | zero => exact ⟨fun _ => rfl, fun _ => h.1⟩
  | some X Y hns => exact ⟨fun hz => absurd hz h.1, fun hc => nomatch hc⟩

/-- Multiples evaluated by the ladder. -/
theorem smul_zero_iff (k u : Nat) (hk : k < 2 ^ 255) (hu : u < p25519) (hu0 : u ≠ 0) (v : Kc) (h : (curve25519 Kc).Nonsingular (algebraMap _ _ (u : ZMod p25519)) v) :
    k • (.some _ v h : Pt) = 0 ↔ (natLad p25519 u k 255 (1, 0, u, 1)).2.1 = 0 := by
  have pos : 0 < p25519 := Nat.Prime.pos prime_25519
  have hp := p_big
  have hz : (u : ZMod p25519) ≠ 0 := by
    rw [Ne, ZMod.natCast_eq_zero_iff]
    exact fun hd => absurd (Nat.le_of_dvd (Nat.pos_of_ne_zero hu0) hd) (by omega)
  have hu' : algebraMap (ZMod p25519) Kc u ≠ 0 := fun hc => hz ((map_eq_zero _).mp hc)
  have hP : Rep (algebraMap (ZMod p25519) Kc u) 1 (.some _ v h : Pt) := ⟨one_ne_zero, (mul_one _).symm⟩
  have hr := (lad_rep (A := (486662 : Kc)) (a24 := 121665) K2 KA Ka24 hu' hP 255 k hk 255 (le_refl _)).1
  rw [Nat.sub_self, pow_zero, Nat.div_one] at hr
  obtain ⟨_, m2, _, _⟩ := lad_map (algebraMap (ZMod p25519) Kc) 121665 (u : ZMod p25519) 255 k 255
  rw [map_const] at m2
  refine (rep_zero_iff hr).symm.trans ?_
  rw [m2, map_eq_zero]
  obtain ⟨_, h2, _, _, _, g2, _, _⟩ := natLad_spec u k 255 (le_refl _) (1, 0, u, 1)
    ⟨by show 1 < p25519; omega, pos, hu, by show 1 < p25519; omega, by simp [lad], by simp [lad], rfl, by simp [lad]⟩
  rw [← g2, ZMod.natCast_eq_zero_iff]
  exact ⟨fun hd => Nat.eq_zero_of_dvd_of_lt hd h2, fun e => by rw [e]; exact dvd_zero _⟩

/-- right-hand side of the curve equation -/
def rhs (u : ZMod p25519) : ZMod p25519 := u ^ 3 + 486662 * u ^ 2 + u

theorem v_pow (u : ZMod p25519) (v : Kc) (h : (curve25519 Kc).Nonsingular (algebraMap _ _ u) v) :
    v ^ p25519 = v * algebraMap _ _ (rhs u ^ ((p25519 - 1) / 2)) := by
  have he := (equation_mont (A := (486662 : Kc)) (algebraMap (ZMod p25519) Kc u) v).mp h.1
  have e1 : algebraMap (ZMod p25519) Kc (rhs u) = v ^ 2 := by
    rw [he, rhs, map_add, map_add, map_mul, map_pow, map_pow, map_ofNat]
  have e2 : p25519 = 2 * ((p25519 - 1) / 2) + 1 := by decide +kernel
  rw [map_pow, e1, ← pow_mul]
  refine (congrArg (v ^ ·) e2).trans ?_
  show v ^ (2 * ((p25519 - 1) / 2) + 1) = _
  rw [pow_succ, mul_comm]

theorem mem_Hp_of (u : ZMod p25519) (v : Kc) (h) (hs : rhs u ^ ((p25519 - 1) / 2) = 1) : (.some (algebraMap _ _ u) v h : Pt) ∈ Hp := by
  obtain ⟨h', e⟩ := frob_apply _ v h
  rw [mem_Hp, e]
  have hx : (algebraMap (ZMod p25519) Kc u) ^ p25519 = algebraMap (ZMod p25519) Kc u := (fixed_iff _).mpr ⟨u, rfl⟩
  have hy : v ^ p25519 = v := by rw [v_pow u v h, hs, map_one, mul_one]
  congr 1

theorem mem_Hm_of (u : ZMod p25519) (v : Kc) (h) (hs : rhs u ^ ((p25519 - 1) / 2) = -1) : (.some (algebraMap _ _ u) v h : Pt) ∈ Hm := by
  obtain ⟨h', e⟩ := frob_apply _ v h
  obtain ⟨h'', e'⟩ := neg_some' _ v h
  rw [mem_Hm, e, e']
  have hx : (algebraMap (ZMod p25519) Kc u) ^ p25519 = algebraMap (ZMod p25519) Kc u := (fixed_iff _).mpr ⟨u, rfl⟩
  have hy : v ^ p25519 = -v := by rw [v_pow u v h, hs, map_neg, map_one, mul_neg, mul_one]
  congr 1

/-- powers of small expressions evaluated on numbers -/
theorem pow_half (u : Nat) : rhs (u : ZMod p25519) ^ ((p25519 - 1) / 2) = ((powMod p25519 256 (u ^ 3 + 486662 * u ^ 2 + u) ((p25519 - 1) / 2) : Nat) : ZMod p25519) := by
  rw [powMod_eq _ _ _ _ (by decide +kernel), ZMod.natCast_mod, rhs]
  push_cast
  rfl

/-- order of the subgroup generated by the base point: RFC 7748 section 4.1 -/
def ell : Nat := 2 ^ 252 + 27742317777372353535851937790883648493
/-- order of the large subgroup of the twist -/
def ell' : Nat := 2 ^ 253 - 55484635554744707071703875581767296995

theorem ell_prime : ell.Prime := prime_order
theorem ell'_prime : ell'.Prime := prime_twist
instance : Fact ell.Prime := ⟨ell_prime⟩
instance : Fact ell'.Prime := ⟨ell'_prime⟩

/-- a point of order eight -/
def u8 : Nat := 325606250916557431795983626356110631294008115727848805560023387167927233504
/-- the other point of order eight -/
def u8' : Nat := 39382357235489614581723060781553021112529911719440698176882885853963445705823

theorem nine_order (v : Kc) (h : (curve25519 Kc).Nonsingular (algebraMap _ _ ((9 : Nat) : ZMod p25519)) v) :
    (.some _ v h : Pt) ∈ Hp ∧ addOrderOf (.some _ v h : Pt) = ell := by
  refine ⟨mem_Hp_of _ v h ?_, ?_⟩
  · rw [pow_half, show powMod p25519 256 (9 ^ 3 + 486662 * 9 ^ 2 + 9) ((p25519 - 1) / 2) = 1 by decide +kernel, Nat.cast_one]
  · exact addOrderOf_eq_prime ((smul_zero_iff ell 9 (by decide +kernel) (by decide +kernel) (by decide) v h).mpr (by decide +kernel)) (fun hc => nomatch hc)

theorem eight_order (v : Kc) (h : (curve25519 Kc).Nonsingular (algebraMap _ _ (u8 : ZMod p25519)) v) :
    (.some _ v h : Pt) ∈ Hp ∧ addOrderOf (.some _ v h : Pt) = 8 := by
  refine ⟨mem_Hp_of _ v h ?_, ?_⟩
  · rw [pow_half, show powMod p25519 256 (u8 ^ 3 + 486662 * u8 ^ 2 + u8) ((p25519 - 1) / 2) = 1 by decide +kernel, Nat.cast_one]
  · have := addOrderOf_eq_prime_pow (p := 2) (n := 2) (x := (.some _ v h : Pt))
      (fun hc => absurd ((smul_zero_iff 4 u8 (by decide +kernel) (by decide +kernel) (by decide +kernel) v h).mp hc) (by decide +kernel))
      ((smul_zero_iff 8 u8 (by decide +kernel) (by decide +kernel) (by decide +kernel) v h).mpr (by decide +kernel))
    exact this

theorem two_order (v : Kc) (h : (curve25519 Kc).Nonsingular (algebraMap _ _ ((2 : Nat) : ZMod p25519)) v) :
    (.some _ v h : Pt) ∈ Hm ∧ addOrderOf (.some _ v h : Pt) = ell' := by
  refine ⟨mem_Hm_of _ v h ?_, ?_⟩
  · rw [pow_half, show powMod p25519 256 (2 ^ 3 + 486662 * 2 ^ 2 + 2) ((p25519 - 1) / 2) = p25519 - 1 by decide +kernel,
      Nat.cast_sub (by decide +kernel), ZMod.natCast_self, Nat.cast_one, zero_sub]
  · exact addOrderOf_eq_prime ((smul_zero_iff ell' 2 (by decide +kernel) (by decide +kernel) (by decide) v h).mpr (by decide +kernel)) (fun hc => nomatch hc)

theorem four_order (v : Kc) (h : (curve25519 Kc).Nonsingular (algebraMap _ _ ((p25519 - 1 : Nat) : ZMod p25519)) v) :
    (.some _ v h : Pt) ∈ Hm ∧ addOrderOf (.some _ v h : Pt) = 4 := by
  refine ⟨mem_Hm_of _ v h ?_, ?_⟩
  · rw [pow_half, show powMod p25519 256 ((p25519 - 1) ^ 3 + 486662 * (p25519 - 1) ^ 2 + (p25519 - 1)) ((p25519 - 1) / 2) = p25519 - 1 by decide +kernel,
      Nat.cast_sub (by decide +kernel), ZMod.natCast_self, Nat.cast_one, zero_sub]
  · have := addOrderOf_eq_prime_pow (p := 2) (n := 1) (x := (.some _ v h : Pt))
      (fun hc => absurd ((smul_zero_iff 2 (p25519 - 1) (by decide +kernel) (by decide +kernel) (by decide +kernel) v h).mp hc) (by decide +kernel))
      ((smul_zero_iff 4 (p25519 - 1) (by decide +kernel) (by decide +kernel) (by decide +kernel) v h).mpr (by decide +kernel))
    exact this

theorem dvd_card (H : AddSubgroup Pt) (P : Pt) (hP : P ∈ H) : addOrderOf P ∣ Nat.card H := by
  have := addOrderOf_dvd_natCard (⟨P, hP⟩ : H)
  rwa [AddSubgroup.addOrderOf_mk] at this

/-- The curve has `8 ell` points over the prime field. -/
theorem Hp_order : Nat.card Hp = 8 * ell := by
  obtain ⟨v, h⟩ := exists_point ((9 : Nat) : ZMod p25519)
  obtain ⟨w, g⟩ := exists_point (u8 : ZMod p25519)
  obtain ⟨a1, a2⟩ := nine_order v h
  obtain ⟨b1, b2⟩ := eight_order w g
  have d1 := dvd_card _ _ a1
  have d2 := dvd_card _ _ b1
  rw [a2] at d1
  rw [b2] at d2
  have hc : Nat.Coprime 8 ell := by decide +kernel
  obtain ⟨c, hc⟩ := hc.mul_dvd_of_dvd_of_dvd d2 d1
  obtain ⟨hf, hb⟩ := Hp_card
  have hpos : 0 < Nat.card Hp := Nat.card_pos
  rw [hc] at hb hpos ⊢
  have h1 : c < 2 := by
    by_contra hcc
    have : 8 * ell * 2 ≤ 8 * ell * c := Nat.mul_le_mul_left _ (by omega)
    have : ¬ 8 * ell * 2 ≤ 2 * p25519 + 1 := by decide +kernel
    omega
  have h0 : c ≠ 0 := by rintro rfl; simp at hpos
  have : c = 1 := by omega
  rw [this, mul_one]

/-- The order of the twist divides `8 ell'`. -/
theorem Hm_order : Nat.card Hm ∣ 8 * ell' := by
  obtain ⟨v, h⟩ := exists_point ((2 : Nat) : ZMod p25519)
  obtain ⟨w, g⟩ := exists_point ((p25519 - 1 : Nat) : ZMod p25519)
  obtain ⟨a1, a2⟩ := two_order v h
  obtain ⟨b1, b2⟩ := four_order w g
  have d1 := dvd_card _ _ a1
  have d2 := dvd_card _ _ b1
  rw [a2] at d1
  rw [b2] at d2
  have hc : Nat.Coprime 4 ell' := by decide +kernel
  obtain ⟨c, hc⟩ := hc.mul_dvd_of_dvd_of_dvd d2 d1
  obtain ⟨hf, hb⟩ := Hm_card
  have hpos : 0 < Nat.card Hm := Nat.card_pos
  rw [hc] at hb hpos ⊢
  have h1 : c < 3 := by
    by_contra hcc
    have : 4 * ell' * 3 ≤ 4 * ell' * c := Nat.mul_le_mul_left _ (by omega)
    have : ¬ 4 * ell' * 3 ≤ 2 * p25519 + 1 := by decide +kernel
    omega
  have h0 : c ≠ 0 := by rintro rfl; simp at hpos
  have : c ∣ 2 := by
    have : c = 1 ∨ c = 2 := by omega
    rcases this with rfl | rfl <;> decide
  have := Nat.mul_dvd_mul_left (4 * ell') this
  rwa [show 4 * ell' * 2 = 8 * ell' by ring] at this

end Verif.Proof
