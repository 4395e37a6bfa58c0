import Verif.Proof.X25519

/-! `X25519` is the u-coordinate of a multiple of a point. -/

namespace Verif.Proof
open Verif.Model Verif.Spec

theorem zmod_ne_zero (n : Nat) (h0 : 0 < n) (h : n < 2 ^ 40) : ((n : Nat) : ZMod p25519) ≠ 0 := by
  rw [Ne, ZMod.natCast_eq_zero_iff]
  intro hd
  have := Nat.le_of_dvd h0 hd
  have := p_big
  omega

theorem pow_inv (z : ZMod p25519) : z ^ (p25519 - 2) = z⁻¹ := by
  have hp := p_big
  by_cases hz : z = 0
  · rw [hz, inv_zero, zero_pow (by omega)]
  · apply eq_inv_of_mul_eq_one_left
    rw [← pow_succ, show p25519 - 2 + 1 = p25519 - 1 by omega]
    exact ZMod.pow_card_sub_one_eq_one hz

/-- The number returned by a ladder with `N` bits. -/
def xmul (N k : Nat) (u : ZMod p25519) : ZMod p25519 := (lad 121665 u N k N).x2 * (lad 121665 u N k N).z2 ^ (p25519 - 2)

theorem xmul_div (N k : Nat) (u : ZMod p25519) : xmul N k u = (lad 121665 u N k N).x2 / (lad 121665 u N k N).z2 := by
  rw [xmul, pow_inv, div_eq_mul_inv]

section
variable {K : Type} [Field K] [Algebra (ZMod p25519) K]

theorem cast_ne_zero (n : Nat) (h0 : 0 < n) (h : n < 2 ^ 40) : ((n : Nat) : K) ≠ 0 := by
  have := zmod_ne_zero n h0 h
  rw [← map_natCast (algebraMap (ZMod p25519) K)]
  intro hc
  exact this ((map_eq_zero _).mp hc)

theorem K2 : (2 : K) ≠ 0 := by
  have := cast_ne_zero (K := K) 2 (by decide) (by decide)
  exact_mod_cast this

theorem KA : (486662 : K) ^ 2 - 4 ≠ 0 := by
  have := cast_ne_zero (K := K) 236839902240 (by decide) (by decide)
  have e : (486662 : K) ^ 2 - 4 = ((236839902240 : Nat) : K) := by push_cast; norm_num
  rw [e]; exact this

omit [Algebra (ZMod p25519) K] in
theorem Ka24 : 4 * (121665 : K) = 486662 - 2 := by norm_num

theorem map_const : algebraMap (ZMod p25519) K 121665 = 121665 := map_ofNat _ 121665

variable [DecidableEq K]

/-- The ladder gives the u-coordinate of the even multiple `k P`. -/
theorem xmul_uCoord (N k : Nat) (hN : 0 < N) (hk : k < 2 ^ N) (h2 : k % 2 = 0) (u : ZMod p25519) (v : K)
    (h : (curve25519 K).Nonsingular (algebraMap _ K u) v) :
    algebraMap _ K (xmul N k u) = uCoord (k • (WeierstrassCurve.Affine.Point.some _ v h : (curve25519 K).Point)) := by
  by_cases hu : u = 0
  · subst hu
    have h0 : (lad (121665 : ZMod p25519) 0 N k N).z2 = 0 := lad_zero 121665 N k hN h2
    rw [xmul_div, h0, div_zero]
    have hY : v = 0 := by
      have := (equation_mont (A := (486662 : K)) (algebraMap (ZMod p25519) K 0) v).mp h.1
      rw [map_zero] at this
      have hv : v ^ 2 = 0 := by rw [this]; ring
      exact pow_eq_zero_iff (by decide) |>.mp hv
    have hdbl : (WeierstrassCurve.Affine.Point.some _ v h : (curve25519 K).Point) + WeierstrassCurve.Affine.Point.some _ v h = 0 := by
      apply WeierstrassCurve.Affine.Point.add_self_of_Y_eq
      simp [WeierstrassCurve.Affine.negY, curve25519, hY]
    obtain ⟨j, hj⟩ : ∃ j, k = j * 2 := ⟨k / 2, by omega⟩
    rw [hj, mul_smul, two_smul, hdbl, smul_zero, map_zero]
    rfl
  · have hP : Rep (algebraMap (ZMod p25519) K u) 1 (WeierstrassCurve.Affine.Point.some _ v h : (curve25519 K).Point) := ⟨one_ne_zero, (mul_one _).symm⟩
    have hu' : algebraMap (ZMod p25519) K u ≠ 0 := fun hc => hu ((map_eq_zero _).mp hc)
    have := lad_uCoord (A := (486662 : K)) (a24 := 121665) K2 KA Ka24 hu' hP N k hk
    obtain ⟨m1, m2, _, _⟩ := lad_map (algebraMap (ZMod p25519) K) 121665 u N k N
    rw [map_const] at m1 m2
    rw [m1, m2, ← map_div₀, ← xmul_div] at this
    exact this

end

/-- Every residue is the u-coordinate of a point over the algebraic closure. -/
theorem exists_point (u : ZMod p25519) :
    ∃ v : AlgebraicClosure (ZMod p25519), (curve25519 (AlgebraicClosure (ZMod p25519))).Nonsingular (algebraMap _ _ u) v := by
  obtain ⟨v, hv⟩ := IsAlgClosed.exists_pow_nat_eq
    ((algebraMap (ZMod p25519) (AlgebraicClosure (ZMod p25519)) u) ^ 3 + 486662 * (algebraMap (ZMod p25519) (AlgebraicClosure (ZMod p25519)) u) ^ 2 +
      algebraMap (ZMod p25519) (AlgebraicClosure (ZMod p25519)) u) (show 0 < 2 by decide)
  exact ⟨v, nonsingular_mont K2 KA _ v hv⟩

/-- The number of ladder steps does not matter. -/
theorem xmul_width (N N' k : Nat) (hN : 0 < N) (hN' : 0 < N') (hk : k < 2 ^ N) (hk' : k < 2 ^ N') (h2 : k % 2 = 0) (u : ZMod p25519) :
    xmul N k u = xmul N' k u := by
  classical
  obtain ⟨v, hv⟩ := exists_point u
  apply (algebraMap (ZMod p25519) (AlgebraicClosure (ZMod p25519))).injective
  rw [xmul_uCoord N k hN hk h2 u v hv, xmul_uCoord N' k hN' hk' h2 u v hv]

/-- Multiplications by even numbers commute. -/
theorem xmul_comm (N a b : Nat) (hN : 0 < N) (ha : a < 2 ^ N) (hb : b < 2 ^ N) (ha2 : a % 2 = 0) (hb2 : b % 2 = 0) (u : ZMod p25519) :
    xmul N a (xmul N b u) = xmul N b (xmul N a u) := by
  classical
  obtain ⟨v, hv⟩ := exists_point u
  set P : (curve25519 (AlgebraicClosure (ZMod p25519))).Point := WeierstrassCurve.Affine.Point.some _ v hv with hP
  have hz : ∀ k, k % 2 = 0 → xmul N k (0 : ZMod p25519) = 0 := by
    intro k h2
    rw [xmul_div, lad_zero 121665 N k hN h2, div_zero]
  -- the composition as a multiple
  have key : ∀ a b : Nat, a < 2 ^ N → b < 2 ^ N → a % 2 = 0 → b % 2 = 0 →
      algebraMap (ZMod p25519) (AlgebraicClosure (ZMod p25519)) (xmul N a (xmul N b u)) = uCoord ((a * b) • P) := by
    intro a b ha hb ha2 hb2
    have h1 := xmul_uCoord N b hN hb hb2 u v hv
    rw [← hP] at h1
    rw [mul_smul]
    generalize hQ : b • P = Q at h1 ⊢
    cases Q with
    | zero =>
      have h0 : xmul N b u = 0 := by
        have : uCoord (WeierstrassCurve.Affine.Point.zero : (curve25519 (AlgebraicClosure (ZMod p25519))).Point) = 0 := rfl
        rw [this] at h1
        exact (map_eq_zero _).mp h1
      rw [h0, hz a ha2, map_zero]
      have : a • (WeierstrassCurve.Affine.Point.zero : (curve25519 (AlgebraicClosure (ZMod p25519))).Point) = 0 := nsmul_zero a
      rw [this]; rfl
    | some X Y hns =>
      have e : X = algebraMap (ZMod p25519) (AlgebraicClosure (ZMod p25519)) (xmul N b u) := h1.symm
      subst e
      exact xmul_uCoord N a hN ha ha2 (xmul N b u) Y hns
  apply (algebraMap (ZMod p25519) (AlgebraicClosure (ZMod p25519))).injective
  rw [key a b ha hb ha2 hb2, key b a hb ha hb2 ha2, Nat.mul_comm]

/-! ### the ladder of RFC 7748 -/

/-- coordinates of the RFC's ladder -/
def RfcOk (s : Rfc7748State) (l : Lad (ZMod p25519)) : Prop :=
  (cswap s.swap s.x2 s.x3) = (l.x2, l.x3) ∧ (cswap s.swap s.z2 s.z3) = (l.z2, l.z3)

theorem rfcBody_spec (k t : Nat) (u : ZMod p25519) (s : Rfc7748State) (l : Lad (ZMod p25519)) (h : RfcOk s l) :
    RfcOk (rfc7748Body k u s t) (lstep 121665 u (k.testBit t) l) := by
  obtain ⟨h1, h2⟩ := h
  have hb : ((k / 2 ^ t) % 2 == 1) = k.testBit t := by
    rw [Nat.testBit_eq_decide_div_mod_eq]; rfl
  obtain ⟨x2, z2, x3, z3, sw⟩ := s
  obtain ⟨lx2, lz2, lx3, lz3⟩ := l
  unfold RfcOk rfc7748Body
  rw [hb]
  cases k.testBit t <;> cases sw <;> simp [cswap] at h1 h2 <;> obtain ⟨rfl, rfl⟩ := h1 <;> obtain ⟨rfl, rfl⟩ := h2 <;>
    simp [cswap, lstep, xDbl, xAdd]

theorem rfc_fold (k n : Nat) (u : ZMod p25519) (hn : n ≤ 255) (s : Rfc7748State) (h : RfcOk s (lad 121665 u 255 k (255 - n))) :
    RfcOk ((List.range n).reverse.foldl (rfc7748Body k u) s) (lad 121665 u 255 k 255) := by
  induction n generalizing s with
  | zero => exact h
  | succ n ih =>
    rw [List.range_succ, List.reverse_append, List.reverse_singleton, List.singleton_append, List.foldl_cons]
    apply ih (by omega)
    have := rfcBody_spec k n u s _ h
    rw [show 255 - n = (255 - (n + 1)) + 1 by omega, lad, show 255 - 1 - (255 - (n + 1)) = n by omega]
    exact this

theorem rfc7748_eq (k u : Nat) : rfc7748 k u = (xmul 255 k (u : ZMod p25519)).val := by
  have := rfc_fold k 255 (u : ZMod p25519) (le_refl _) ⟨1, 0, u, 1, false⟩ ⟨rfl, rfl⟩
  rw [rfc7748]
  obtain ⟨h1, h2⟩ := this
  dsimp only
  rw [h1, h2]
  rfl

/-! ### evaluation -/

/-- The ladder on numbers, for evaluation. -/
def natStep (p u : Nat) (b : Bool) (x2 z2 x3 z3 : Nat) : Nat × Nat × Nat × Nat :=
  let sx2 := bif b then x3 else x2
  let sz2 := bif b then z3 else z2
  let sx3 := bif b then x2 else x3
  let sz3 := bif b then z2 else z3
  let A := (sx2 + sz2) ^ 2 % p
  let B := (sx2 + p - sz2) ^ 2 % p
  let E := (A + p - B) % p
  let DA := (sx3 + p - sz3) * (sx2 + sz2) % p
  let CB := (sx3 + sz3) * (sx2 + p - sz2) % p
  let dx := A * B % p
  let dz := E * (A + 121665 * E) % p
  let ax := (DA + CB) ^ 2 % p
  let az := u * (DA + p - CB) ^ 2 % p
  bif b then (ax, az, dx, dz) else (dx, dz, ax, az)

/-- `n` further steps -/
def natLad (p u k : Nat) : Nat → Nat × Nat × Nat × Nat → Nat × Nat × Nat × Nat
  | 0, s => s
  | n + 1, (x2, z2, x3, z3) => natLad p u k n (natStep p u (k.testBit n) x2 z2 x3 z3)

/-- The function of the RFC on numbers. -/
def natX (k u : Nat) : Nat :=
  let s := natLad p25519 (u % p25519) k 255 (1, 0, u % p25519, 1)
  s.1 * powMod p25519 256 s.2.1 (p25519 - 2) % p25519

/-- reduced coordinates -/
def NatOk (s : Nat × Nat × Nat × Nat) (l : Lad (ZMod p25519)) : Prop :=
  s.1 < p25519 ∧ s.2.1 < p25519 ∧ s.2.2.1 < p25519 ∧ s.2.2.2 < p25519 ∧
  (s.1 : ZMod p25519) = l.x2 ∧ (s.2.1 : ZMod p25519) = l.z2 ∧ (s.2.2.1 : ZMod p25519) = l.x3 ∧ (s.2.2.2 : ZMod p25519) = l.z3

theorem cast_subp {a b : Nat} (h : b < p25519) : ((a + p25519 - b : Nat) : ZMod p25519) = (a : ZMod p25519) - b := by
  rw [Nat.cast_sub (by omega), Nat.cast_add, ZMod.natCast_self, add_zero]

theorem natStep_spec (u : Nat) (b : Bool) (x2 z2 x3 z3 : Nat) (l : Lad (ZMod p25519)) (h : NatOk (x2, z2, x3, z3) l) :
    NatOk (natStep p25519 u b x2 z2 x3 z3) (lstep 121665 (u : ZMod p25519) b l) := by
  obtain ⟨h1, h2, h3, h4, g1, g2, g3, g4⟩ := h
  dsimp only at h1 h2 h3 h4 g1 g2 g3 g4
  have pos : 0 < p25519 := Nat.Prime.pos prime_25519
  have m : ∀ x, x % p25519 < p25519 := fun x => Nat.mod_lt x pos
  cases b
  · simp only [natStep, cond_false, lstep, Bool.false_eq_true, if_false]
    refine ⟨m _, m _, m _, m _, ?_, ?_, ?_, ?_⟩ <;>
      simp only [ZMod.natCast_mod, Nat.cast_mul, Nat.cast_add, Nat.cast_pow, cast_subp (m _), cast_subp h2, cast_subp h4, g1, g2, g3, g4, xDbl, xAdd] <;>
      push_cast <;> ring
  · simp only [natStep, cond_true, lstep, if_true]
    refine ⟨m _, m _, m _, m _, ?_, ?_, ?_, ?_⟩ <;>
      simp only [ZMod.natCast_mod, Nat.cast_mul, Nat.cast_add, Nat.cast_pow, cast_subp (m _), cast_subp h2, cast_subp h4, g1, g2, g3, g4, xDbl, xAdd] <;>
      push_cast <;> ring

theorem natLad_spec (u k n : Nat) (hn : n ≤ 255) (s : Nat × Nat × Nat × Nat) (h : NatOk s (lad 121665 (u : ZMod p25519) 255 k (255 - n))) :
    NatOk (natLad p25519 u k n s) (lad 121665 (u : ZMod p25519) 255 k 255) := by
  induction n generalizing s with
  | zero => exact h
  | succ n ih =>
    obtain ⟨x2, z2, x3, z3⟩ := s
    rw [natLad]
    apply ih (by omega)
    rw [show 255 - n = (255 - (n + 1)) + 1 by omega, lad, show 255 - 1 - (255 - (n + 1)) = n by omega]
    exact natStep_spec u _ x2 z2 x3 z3 _ h

theorem natX_eq (k u : Nat) : rfc7748 k u = natX k u := by
  have pos : 0 < p25519 := Nat.Prime.pos prime_25519
  have hp := p_big
  obtain ⟨_, _, _, _, g1, g2, _, _⟩ := natLad_spec (u % p25519) k 255 (le_refl _) (1, 0, u % p25519, 1)
    ⟨by show 1 < p25519; omega, pos, Nat.mod_lt _ pos, by show 1 < p25519; omega, by simp [lad], by simp [lad], rfl, by simp [lad]⟩
  rw [rfc7748_eq, natX, xmul]
  rw [ZMod.natCast_mod] at g1 g2
  rw [← g1, ← g2, powMod_eq _ _ _ _ (by decide +kernel), ← Nat.cast_pow, ← Nat.cast_mul, ZMod.val_natCast, Nat.mul_mod_mod]

end Verif.Proof
