import Verif.Props.X25519Orders
import Verif.Props.RsaRaw
import Verif.Proof.Secrets25519

/-! C141, C144: received values that lead to the same shared secret, and how many shared secrets there are. -/

namespace Verif.Props
open Verif.Model Verif.Spec Verif.Proof

/-- C141 in full: two different residues that are not of low order never lead to the same shared secret. -/
def C141_claim : Prop := ∀ k u u' : List U32, k.length = 8 → u.length = 8 → u'.length = 8 → value u < p25519 → value u' < p25519 → u ≠ u' →
  value u ∉ lowOrderU → value u' ∉ lowOrderU → x25519 k u ≠ x25519 k u'

/-- Both large orders together annihilate eight times any point over a residue. -/
theorem kill_both (u : ZMod p25519) (hu : u ≠ 0) (v : Kc) (h : (curve25519 Kc).Nonsingular (algebraMap _ _ u) v) : (ell * ell') • (8 • (.some _ v h : Pt)) = 0 := by
  have := bigOrder_kill u hu v h
  rw [mul_comm, mul_smul] at this
  rcases bigOrder_cases u with e | e <;> rw [e] at this
  · rw [mul_comm, mul_smul, this]; exact nsmul_zero _
  · rw [mul_smul, this]; exact nsmul_zero _

/-- C141, the exact truth: the secrets are equal exactly if eight times the points are equal up to sign. -/
theorem C141_partial (k u u' : List U32) (hk : k.length = 8) (hu : u.length = 8) (hu' : u'.length = 8) (hl : value u % p25519 ∉ lowOrderU)
    (hl' : value u' % p25519 ∉ lowOrderU) (v v' : Kc) (h : (curve25519 Kc).Nonsingular (algebraMap _ _ (value u : ZMod p25519)) v)
    (h' : (curve25519 Kc).Nonsingular (algebraMap _ _ (value u' : ZMod p25519)) v') :
    x25519 k u = x25519 k u' ↔ ((8 : Nat) • (.some _ v h : Pt) : Pt) = (8 : Nat) • (.some _ v' h' : Pt) ∨ ((8 : Nat) • (.some _ v h : Pt) : Pt) = -((8 : Nat) • (.some _ v' h' : Pt) : Pt) := by
  obtain ⟨r, e, l, vr⟩ := x25519_xmul k u hk hu
  obtain ⟨r', e', l', vr'⟩ := x25519_xmul k u' hk hu'
  obtain ⟨h1, h2, _⟩ := scalar_range k
  generalize scalarOf k = s at *
  rw [← low_iff] at hl hl'
  have step : x25519 k u = x25519 k u' ↔ uCoord ((8 * s) • (.some _ v h : Pt)) = uCoord ((8 * s) • (.some _ v' h' : Pt)) := by
    rw [← xmul_uCoord 255 (8 * s) (by decide) (by omega) (by omega) _ v h, ← xmul_uCoord 255 (8 * s) (by decide) (by omega) (by omega) _ v' h',
      (algebraMap (ZMod p25519) Kc).injective.eq_iff, e, e']
    constructor
    · intro hr
      rw [Except.ok.inj hr, vr'] at vr
      exact (ZMod.val_injective _ vr).symm
    · intro hx
      exact congrArg Except.ok (value_inj (by rw [l, l']) (by rw [vr, vr', hx]))
  rw [step]
  have hne : ∀ (w : Nat) (y : Kc) (hy : (curve25519 Kc).Nonsingular (algebraMap _ _ (w : ZMod p25519)) y), ¬ LowOrder (w : ZMod p25519) → (8 * s) • (.some _ y hy : Pt) ≠ 0 := by
    intro w y hy hw hc
    apply hw
    rw [← low_point _ s (by omega) h2 y hy, hc]
    rfl
  refine (uCoord_eq (hne _ v h hl) (hne _ v' h' hl')).trans ?_
  have ks := kill_both _ (fun hc => hl (.inl hc)) v h
  have ks' := kill_both _ (fun hc => hl' (.inl hc)) v' h'
  rw [mul_comm 8 s, mul_smul, mul_smul]
  generalize 8 • (.some _ v h : Pt) = P at *
  generalize 8 • (.some _ v' h' : Pt) = Q at *
  -- `s` has an inverse modulo the product of the orders
  have hcop : Nat.Coprime s (ell * ell') := by
    have c1 : Nat.Coprime s ell := ((Nat.Prime.coprime_iff_not_dvd ell_prime).mpr (fun hd => by
      have := Nat.le_of_dvd (by omega) hd
      have : 2 ^ 252 < ell := by decide +kernel
      omega)).symm
    have c2 : Nat.Coprime s ell' := ((Nat.Prime.coprime_iff_not_dvd ell'_prime).mpr (fun hd => by
      have := Nat.le_of_dvd (by omega) hd
      have : 2 ^ 252 < ell' := by decide +kernel
      omega)).symm
    exact c1.mul_right c2
  have hbig : 1 < ell * ell' := by decide +kernel
  obtain ⟨t, _, ht⟩ := Nat.exists_mul_mod_eq_one_of_coprime hcop hbig
  have undo : ∀ R : Pt, (ell * ell') • R = 0 → t • s • R = R := by
    intro R hR
    rw [smul_smul, mul_comm t s, ← Nat.mod_add_div (s * t) (ell * ell'), ht, add_smul, mul_comm (ell * ell'), mul_smul, hR, one_smul]
    rw [nsmul_zero, add_zero]
  constructor
  · rintro (hc | hc)
    · left
      rw [← undo P ks, hc, undo Q ks']
    · right
      rw [← undo P ks, hc, neg_nsmul, undo Q ks']
  · rintro (hc | hc)
    · left; rw [hc]
    · right; rw [hc, neg_nsmul]

/-- Nine, the base point of X25519, as eight words. -/
def nine : List U32 := [9, 0, 0, 0, 0, 0, 0, 0]

/-- Five as eight words. -/
def five : List U32 := [5, 0, 0, 0, 0, 0, 0, 0]

/-- The hypotheses of `C141_partial` hold for nine and five: neither is of low order and both have points over them. -/
example : nine.length = 8 ∧ five.length = 8 ∧ value nine % p25519 ∉ lowOrderU ∧ value five % p25519 ∉ lowOrderU ∧ nine ≠ five := by decide +kernel
example : (∃ v : Kc, (curve25519 Kc).Nonsingular (algebraMap _ _ (value nine : ZMod p25519)) v) ∧ ∃ v : Kc, (curve25519 Kc).Nonsingular (algebraMap _ _ (value five : ZMod p25519)) v :=
  ⟨exists_point _, exists_point _⟩

/-- C141: which received values lead to the same secret does not depend on the private key. -/
theorem C141_key_independent (k k' u u' : List U32) (hk : k.length = 8) (hk' : k'.length = 8) (hu : u.length = 8) (hu' : u'.length = 8) (h : x25519 k u = x25519 k u') :
    x25519 k' u = x25519 k' u' := by
  by_cases hl : value u % p25519 ∈ lowOrderU
  · obtain ⟨r, e, hr⟩ := C91_partial k u hk hu
    obtain ⟨r', e', hr'⟩ := C91_partial k u' hk hu'
    rw [e, e'] at h
    have hl' : value u' % p25519 ∈ lowOrderU := hr'.mp (by rw [← Except.ok.inj h]; exact hr.mpr hl)
    obtain ⟨q, f, lq, hq⟩ := x25519_xmul k' u hk' hu
    obtain ⟨q', f', lq', hq'⟩ := x25519_xmul k' u' hk' hu'
    obtain ⟨h1, h2, _⟩ := scalar_range k'
    rw [f, f']
    refine congrArg Except.ok (value_inj (by rw [lq, lq']) ?_)
    rw [hq, hq', (xmul_zero_iff _ (by omega) h2 _).mpr ((low_iff _).mpr hl), (xmul_zero_iff _ (by omega) h2 _).mpr ((low_iff _).mpr hl')]
  · by_cases hl' : value u' % p25519 ∈ lowOrderU
    · obtain ⟨r, e, hr⟩ := C91_partial k u hk hu
      obtain ⟨r', e', hr'⟩ := C91_partial k u' hk hu'
      rw [e, e'] at h
      exact absurd (hr.mp (by rw [Except.ok.inj h]; exact hr'.mpr hl')) hl
    · obtain ⟨v, hv⟩ := exists_point (value u : ZMod p25519)
      obtain ⟨v', hv'⟩ := exists_point (value u' : ZMod p25519)
      exact (C141_partial k' u u' hk' hu hu' hl hl' v v' hv hv').mpr ((C141_partial k u u' hk hu hu' hl hl' v v' hv hv').mp h)

/-- Adding the point of order two inverts the u-coordinate. -/
theorem inverse_point (u : ZMod p25519) (hu : u ≠ 0) (v : Kc) (h : (curve25519 Kc).Nonsingular (algebraMap _ _ u) v) :
    ∃ (v' : Kc) (h' : (curve25519 Kc).Nonsingular (algebraMap _ _ u⁻¹) v'), (2 : Nat) • (.some _ v' h' : Pt) = (2 : Nat) • (.some _ v h : Pt) := by
  have hx : algebraMap (ZMod p25519) Kc u ≠ 0 := fun hc => hu ((map_eq_zero _).mp hc)
  have hT : (curve25519 Kc).Nonsingular 0 0 := nonsingular_mont K2 KA _ _ (by ring)
  have heq := (equation_mont (A := (486662 : Kc)) _ v).mp h.1
  have hdbl : (.some _ _ hT : Pt) + .some _ _ hT = 0 := by
    apply WeierstrassCurve.Affine.Point.add_self_of_Y_eq
    simp [WeierstrassCurve.Affine.negY, curve25519]
  have hX : (curve25519 Kc).addX (algebraMap _ _ u) 0 ((curve25519 Kc).slope (algebraMap _ _ u) 0 v 0) = algebraMap _ _ u⁻¹ := by
    rw [WeierstrassCurve.Affine.slope_of_X_ne hx, map_inv₀]
    simp only [WeierstrassCurve.Affine.addX, curve25519]
    generalize algebraMap (ZMod p25519) Kc u = x at *
    field_simp
    linear_combination x * heq
  have hadd := WeierstrassCurve.Affine.Point.add_of_X_ne (h₁ := h) (h₂ := hT) hx
  have hdouble : (2 : Nat) • ((.some _ v h : Pt) + .some _ _ hT) = (2 : Nat) • (.some _ v h : Pt) := by
    rw [nsmul_add, two_nsmul (.some _ _ hT : Pt), hdbl, add_zero]
  rw [hadd] at hdouble
  revert hdouble
  generalize_proofs hns
  revert hns
  rw [hX]
  intro hns hd
  exact ⟨_, hns, hd⟩

/-- C141: a received value and its inverse modulo `2^255 - 19` lead to the same secret for every private key. -/
theorem C141_inverse (k u u' : List U32) (hk : k.length = 8) (hu : u.length = 8) (hu' : u'.length = 8) (h : value u * value u' % p25519 = 1) : x25519 k u = x25519 k u' := by
  obtain ⟨r, e, l, vr⟩ := x25519_xmul k u hk hu
  obtain ⟨r', e', l', vr'⟩ := x25519_xmul k u' hk hu'
  obtain ⟨h1, h2, _⟩ := scalar_range k
  generalize scalarOf k = s at *
  have hm : (value u : ZMod p25519) * (value u' : ZMod p25519) = 1 := by
    rw [← Nat.cast_mul, ← Nat.cast_one, ZMod.natCast_eq_natCast_iff, Nat.ModEq, h]
    decide +kernel
  have hi : (value u' : ZMod p25519) = (value u : ZMod p25519)⁻¹ := (inv_eq_of_mul_eq_one_right hm).symm
  have hne : (value u : ZMod p25519) ≠ 0 := left_ne_zero_of_mul_eq_one hm
  obtain ⟨v, hv⟩ := exists_point (value u : ZMod p25519)
  obtain ⟨v', hv', hd⟩ := inverse_point _ hne v hv
  have hx : xmul 255 (8 * s) (value u : ZMod p25519) = xmul 255 (8 * s) (value u' : ZMod p25519) := by
    apply (algebraMap (ZMod p25519) Kc).injective
    have split : ∀ R : Pt, (8 * s) • R = (4 * s) • (2 : Nat) • R := fun R => by rw [smul_smul, show 4 * s * 2 = 8 * s by omega]
    rw [hi, xmul_uCoord 255 (8 * s) (by decide) (by omega) (by omega) _ v hv, xmul_uCoord 255 (8 * s) (by decide) (by omega) (by omega) _ v' hv']
    exact congrArg uCoord ((split _).trans ((congrArg ((4 * s) • ·) hd.symm).trans (split _).symm))
  rw [e, e']
  exact congrArg Except.ok (value_inj (by rw [l, l']) (by rw [vr, vr', hx]))

/-- The inverse of nine as eight words. -/
def ninth : List U32 := [0x1c71c712, 0xc71c71c7, 0x71c71c71, 0x1c71c71c, 0xc71c71c7, 0x71c71c71, 0x1c71c71c, 0x471c71c7]

theorem ninth_facts : ninth.length = 8 ∧ value ninth < p25519 ∧ value nine * value ninth % p25519 = 1 ∧ value ninth ∉ lowOrderU ∧ value nine ∉ lowOrderU := by
  decide +kernel

/-- The hypotheses of `C141_inverse` and of `C141_key_independent` hold for nine and its inverse. -/
example : value nine * value ninth % p25519 = 1 ∧ nine ≠ ninth := by decide +kernel
example : x25519 (List.replicate 8 5) nine = x25519 (List.replicate 8 5) ninth := C141_inverse _ _ _ rfl rfl ninth_facts.1 ninth_facts.2.2.1

/-- C141 does not hold: nine and its inverse are a counterexample, whatever the private key. -/
theorem C141_false : ¬ C141_claim := by
  intro hc
  obtain ⟨h1, h2, h3, h4, h5⟩ := ninth_facts
  exact hc (List.replicate 8 0) nine ninth rfl rfl h1 (by decide +kernel) h2 (by decide +kernel) h5 h4 (C141_inverse _ _ _ rfl rfl h1 h3)

/-! ### C144 -/

/-- The u-coordinate of a result, in the field. -/
noncomputable def secretCoord (r : List U32) : Kc := algebraMap (ZMod p25519) Kc (value r : ZMod p25519)

theorem secret_range (k : List U32) (hk : k.length = 8) (x : Kc) : (∃ u r, u.length = 8 ∧ x25519 k u = .ok r ∧ secretCoord r = x) ↔ x ∈ Set.range allSecrets := by
  obtain ⟨h1, h2, _⟩ := scalar_range k
  rw [← xmul_range _ h1 h2]
  have hv : ∀ z : ZMod p25519, ((z.val : Nat) : ZMod p25519) = z := fun z => ZMod.natCast_zmod_val z
  constructor
  · rintro ⟨u, r, hu, e, rfl⟩
    obtain ⟨r', e', _, v⟩ := x25519_xmul k u hk hu
    rw [e] at e'
    obtain rfl := Except.ok.inj e'
    exact ⟨(value u : ZMod p25519), by simp only; rw [secretCoord, v, hv]⟩
  · rintro ⟨z, rfl⟩
    obtain ⟨u, hu, vu⟩ := exists_words 8 z.val ((ZMod.val_lt z).trans (by decide +kernel))
    obtain ⟨r, e, _, v⟩ := x25519_xmul k u hk hu
    exact ⟨u, r, hu, e, by simp only; rw [secretCoord, v, hv, vu, hv]⟩

theorem secretCoord_inj (k k' u u' r r' : List U32) (hk : k.length = 8) (hk' : k'.length = 8) (hu : u.length = 8) (hu' : u'.length = 8) (e : x25519 k u = .ok r)
    (e' : x25519 k' u' = .ok r') (h : secretCoord r = secretCoord r') : r = r' := by
  obtain ⟨s, f, l, v⟩ := x25519_xmul k u hk hu
  obtain ⟨s', f', l', v'⟩ := x25519_xmul k' u' hk' hu'
  rw [e] at f
  rw [e'] at f'
  obtain rfl := Except.ok.inj f
  obtain rfl := Except.ok.inj f'
  have hv : ∀ z : ZMod p25519, ((z.val : Nat) : ZMod p25519) = z := fun z => ZMod.natCast_zmod_val z
  have := (algebraMap (ZMod p25519) Kc).injective h
  rw [v, v', hv, hv] at this
  exact value_inj (by rw [l, l']) (by rw [v, v', this])

/-- C144: whatever the private key, there are exactly this many different shared secrets (all zero included); the two numbers are the prime orders of the large
subgroups of the curve and of its twist. -/
theorem C144_count (k : List U32) (hk : k.length = 8) : Nat.card {r : List U32 // ∃ u, u.length = 8 ∧ x25519 k u = .ok r} =
    1 + (2 ^ 252 + 27742317777372353535851937790883648493 - 1) / 2 + (2 ^ 253 - 55484635554744707071703875581767296995 - 1) / 2 := by
  have hf : Nat.card (Set.range allSecrets) = 1 + (2 ^ 252 + 27742317777372353535851937790883648493 - 1) / 2 + (2 ^ 253 - 55484635554744707071703875581767296995 - 1) / 2 := by
    rw [Nat.card_congr (Equiv.ofInjective _ allSecrets_inj).symm, Nat.card_eq_fintype_card, Fintype.card_option, Fintype.card_sum, Fintype.card_fin, Fintype.card_fin]
    decide +kernel
  rw [← hf]
  refine Nat.card_congr (Equiv.ofBijective (fun r => ⟨secretCoord r.1, (secret_range k hk _).mp ?_⟩) ⟨?_, ?_⟩)
  · obtain ⟨u, hu, e⟩ := r.2
    exact ⟨u, r.1, hu, e, rfl⟩
  · rintro ⟨r, u, hu, e⟩ ⟨r', u', hu', e'⟩ h
    exact Subtype.ext (secretCoord_inj k k u u' r r' hk hk hu hu' e e' (congrArg Subtype.val h))
  · rintro ⟨x, hx⟩
    obtain ⟨u, r, hu, e, rfl⟩ := (secret_range k hk x).mpr hx
    exact ⟨⟨r, u, hu, e⟩, rfl⟩

/-- A case that meets the hypotheses of `C144_count`. -/
example := C144_count (List.replicate 8 3#32) rfl

/-- C144: the possible shared secrets are the same for all private keys, so a value by itself says nothing about the key. -/
theorem C144_same_set (k k' r : List U32) (hk : k.length = 8) (hk' : k'.length = 8) :
    (∃ u, u.length = 8 ∧ x25519 k u = .ok r) ↔ ∃ u, u.length = 8 ∧ x25519 k' u = .ok r := by
  have key : ∀ k k' : List U32, k.length = 8 → k'.length = 8 → (∃ u, u.length = 8 ∧ x25519 k u = .ok r) → ∃ u, u.length = 8 ∧ x25519 k' u = .ok r := by
    rintro k k' hk hk' ⟨u, hu, e⟩
    obtain ⟨u', r', hu', e', h⟩ := (secret_range k' hk' _).mpr ((secret_range k hk _).mp ⟨u, r, hu, e, rfl⟩)
    obtain rfl := secretCoord_inj k' k u' u r' r hk' hk hu' hu e' e h
    exact ⟨u', hu', e'⟩
  exact ⟨key k k' hk hk', key k' k hk' hk⟩

/-- The hypotheses hold for every eight words. -/
example : (List.replicate 8 (5#32)).length = 8 ∧ (List.replicate 8 (6#32)).length = 8 := ⟨rfl, rfl⟩

end Verif.Props
