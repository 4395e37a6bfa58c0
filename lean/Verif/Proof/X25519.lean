import Verif.Model.X25519
import Verif.Proof.BignumOps
import Verif.Proof.Ladder
import Verif.Proof.Prime25519
import Mathlib.FieldTheory.Finite.Basic
import Mathlib.Tactic.IntervalCases

/-! include/caligo/x25519.h computes in the field with `2^255 - 19` elements. -/

namespace Verif.Proof
open Verif.Model Verif.Spec

instance fact_prime_25519 : Fact p25519.Prime := ⟨prime_25519⟩

/-- `2^256 = 2 p + 38` -/
theorem pow256 : 2 ^ (32 * 8) = 2 * p25519 + 38 := by decide +kernel

theorem p_big : 2 ^ 40 < p25519 := by decide +kernel

theorem bnN_256 : bnN 256 = 8 := rfl

theorem ecModulus_value : value ecModulus = p25519 ∧ ecModulus.length = 8 := by
  refine ⟨by decide +kernel, rfl⟩

theorem ecZero_value : value ecZero = 0 ∧ ecZero.length = 8 := ⟨value_replicate_zero 8, rfl⟩

theorem if_mod_value (b : Bool) : value (if b then ecModulus else ecZero) = p25519 * (if b then 1 else 0) ∧ (if b then ecModulus else ecZero).length = 8 := by
  cases b
  · simp [ecZero_value]
  · simp [ecModulus_value]

theorem boolMul_toNat (b : Bool) : (boolMul b 38#32).toNat = 38 * (if b then 1 else 0) := by cases b <;> rfl

/-- exact result of `ecAdd` -/
theorem ecAdd_spec (a b : List U32) (ha : a.length = 8) (hb : b.length = 8) :
    ∃ r, ecAdd a b = .ok r ∧ r.length = 8 ∧ ∃ c, value r + 2 * p25519 * c = value a + value b := by
  have h1 := bnAdd_spec a b (by omega)
  have l1 := bnAdd_length a b (by omega)
  rw [ha] at h1 l1
  obtain ⟨l2, v2⟩ := bnOfU32_spec 256 (by decide) (boolMul (bnAdd a b).1 38#32)
  rw [bnN_256] at l2
  rw [boolMul_toNat] at v2
  have h3 := bnAdd_spec (bnAdd a b).2 (bnOfU32 256 (boolMul (bnAdd a b).1 38#32)) (by omega)
  have l3 := bnAdd_length (bnAdd a b).2 (bnOfU32 256 (boolMul (bnAdd a b).1 38#32)) (by omega)
  rw [l1] at h3 l3
  rw [v2] at h3
  have hlt := value_lt (bnAdd a b).2
  rw [l1] at hlt
  have hr : ecAdd a b = (rd (bnAdd (bnAdd a b).2 (bnOfU32 256 (boolMul (bnAdd a b).1 38#32))).2 0 >>= fun w =>
      wr (bnAdd (bnAdd a b).2 (bnOfU32 256 (boolMul (bnAdd a b).1 38#32))).2 0 (w + boolMul (bnAdd (bnAdd a b).2 (bnOfU32 256 (boolMul (bnAdd a b).1 38#32))).1 38#32)) := rfl
  rw [hr]
  generalize hs : (bnAdd a b).2 = s at *
  generalize hc : (bnAdd a b).1 = c at *
  generalize hs2 : (bnAdd s (bnOfU32 256 (boolMul c 38#32))).2 = s2 at *
  generalize hc2 : (bnAdd s (bnOfU32 256 (boolMul c 38#32))).1 = c2 at *
  rw [rd_ok (by omega), loop_ok_bind, wr_ok _ (by omega)]
  refine ⟨_, rfl, by simpa using l3, ?_⟩
  have hset := value_set s2 0 (s2[0] + boolMul c2 38#32) (by omega)
  have hget := getElem_of_value s2 0 (by omega)
  rw [BitVec.toNat_add, boolMul_toNat] at hset
  simp only [Nat.mul_zero, pow_zero, Nat.one_mul, Nat.div_one] at hset hget
  have hp := p_big
  rw [pow256] at *
  cases c2
  · simp only [Bool.false_eq_true, if_false, Nat.mul_zero, Nat.add_zero] at *
    have := s2[0].isLt
    rw [Nat.mod_eq_of_lt this] at hset
    cases c
    · exact ⟨0, by simp at *; omega⟩
    · exact ⟨1, by simp at *; omega⟩
  · cases c
    · simp at h3; omega
    · simp only [if_true, Nat.mul_one] at *
      have hs2v : value s2 < 38 := by omega
      rw [Nat.mod_eq_of_lt (by omega)] at hget
      rw [hget, Nat.mod_eq_of_lt (by omega)] at hset
      exact ⟨2, by omega⟩

/-- The residue represented by an `ec_value`. -/
def res (v : List U32) : ZMod p25519 := (value v : ZMod p25519)

theorem ecAdd_res (a b : List U32) (ha : a.length = 8) (hb : b.length = 8) :
    ∃ r, ecAdd a b = .ok r ∧ r.length = 8 ∧ res r = res a + res b := by
  obtain ⟨r, e, l, c, h⟩ := ecAdd_spec a b ha hb
  refine ⟨r, e, l, ?_⟩
  have := congrArg (Nat.cast : Nat → ZMod p25519) h
  push_cast at this
  rw [show ((p25519 : Nat) : ZMod p25519) = 0 from ZMod.natCast_self _] at this
  simpa [res] using this

/-- `2^256` is `38` in the field -/
theorem pow256_res : ((2 ^ (32 * 8) : Nat) : ZMod p25519) = 38 := by
  rw [pow256]; push_cast
  rw [ZMod.natCast_self]; ring

theorem split256 (x : Nat) : ((x : Nat) : ZMod p25519) = ((x % 2 ^ (32 * 8) : Nat) : ZMod p25519) + 38 * ((x / 2 ^ (32 * 8) : Nat) : ZMod p25519) := by
  have h := Nat.mod_add_div x (2 ^ (32 * 8))
  have := congrArg (Nat.cast : Nat → ZMod p25519) h
  rw [Nat.cast_add, Nat.cast_mul, pow256_res] at this
  exact this.symm

theorem ecMulWord_res (a : List U32) (b : U32) (ha : a.length = 8) :
    ∃ r, ecMulWord a b = .ok r ∧ r.length = 8 ∧ res r = res a * (b.toNat : ZMod p25519) := by
  obtain ⟨l1, v1⟩ := mulWordLoop_spec 0#64 b a (by decide)
  have hz : (0#64 : U64).toNat = 0 := rfl
  rw [hz, Nat.add_zero] at v1
  rw [ha] at l1
  change (bnMulWord a b).length = 9 at l1
  change value (bnMulWord a b) = value a * b.toNat at v1
  obtain ⟨lo, e2, l2, v2⟩ := bnSlice_value 256 (bnMulWord a b) 0 (by rw [l1, bnN_256]; decide)
  rw [bnN_256] at l2 v2
  simp only [Nat.zero_div, Nat.mul_zero, pow_zero, Nat.div_one] at v2
  have h8 := getElem_of_value (bnMulWord a b) 8 (by omega)
  have hlt : value (bnMulWord a b) < 2 ^ (32 * 9) := by have := value_lt (bnMulWord a b); rwa [l1] at this
  have hq : value (bnMulWord a b) / 2 ^ (32 * 8) < 2 ^ 32 := by
    rw [Nat.div_lt_iff_lt_mul (by positivity), ← pow_add]; exact hlt
  rw [Nat.mod_eq_of_lt hq] at h8
  have hx : ((bnMulWord a b)[8].setWidth 64 * 38#64).toNat = 38 * (bnMulWord a b)[8].toNat := by
    have := (bnMulWord a b)[8].isLt
    rw [BitVec.toNat_mul, BitVec.toNat_setWidth, show BitVec.toNat 38#64 = 38 by rfl]; omega
  set ov := (bnMulWord a b)[8].setWidth 64 * 38#64 with hov
  have e3 := bnOfInit_spec 256 [(ov >>> 32).setWidth 32, (ov &&& 0xFFFFFFFF#64).setWidth 32] (by show 2 ≤ 8; decide)
  have hv3 : value ([(ov >>> 32).setWidth 32, (ov &&& 0xFFFFFFFF#64).setWidth 32].reverse ++ List.replicate (bnN 256 - 2) 0#32) = ov.toNat := by
    have hh := hi32 ov
    have hh2 := hi32_lt ov
    rw [value_append, value_replicate_zero]
    simp only [List.reverse_cons, List.reverse_nil, List.nil_append, List.cons_append, value, lo32, Nat.mul_zero, Nat.add_zero]
    rw [BitVec.toNat_setWidth, Nat.mod_eq_of_lt hh2, hh]
    omega
  obtain ⟨r, e4, l4, v4⟩ := ecAdd_res lo ([(ov >>> 32).setWidth 32, (ov &&& 0xFFFFFFFF#64).setWidth 32].reverse ++ List.replicate (bnN 256 - 2) 0#32) l2 (by rfl)
  refine ⟨r, ?_, l4, ?_⟩
  · rw [ecMulWord]
    dsimp only
    rw [rd_ok (by omega), loop_ok_bind, e2, loop_ok_bind, ← hov, e3, loop_ok_bind]
    exact e4
  · rw [v4, res, res, hv3, v2, hx, h8, res, ← Nat.cast_mul, ← v1, split256 (value (bnMulWord a b))]
    push_cast; ring

theorem ecMul_res (a b : List U32) (ha : a.length = 8) (hb : b.length = 8) :
    ∃ r, ecMul a b = .ok r ∧ r.length = 8 ∧ res r = res a * res b := by
  obtain ⟨x, e1, l1, v1⟩ := bnMul_spec 256 a b ha hb (by decide)
  have l1' : x.length = 16 := l1
  obtain ⟨up, e2, l2, v2⟩ := bnSlice_value 256 x 256 (by rw [l1', bnN_256])
  obtain ⟨lo, e3, l3, v3⟩ := bnSlice_value 256 x 0 (by rw [l1', bnN_256]; decide)
  rw [bnN_256] at l2 v2 l3 v3
  simp only [Nat.zero_div, Nat.mul_zero, pow_zero, Nat.div_one] at v3
  rw [show 32 * (256 / 32) = 32 * 8 by rfl] at v2
  have hxlt : value x < 2 ^ (32 * 16) := by have := value_lt x; rwa [l1'] at this
  have hq : value x / 2 ^ (32 * 8) < 2 ^ (32 * 8) := by
    rw [Nat.div_lt_iff_lt_mul (by positivity), ← pow_add]; exact hxlt
  rw [Nat.mod_eq_of_lt hq] at v2
  obtain ⟨l4, v4⟩ := mulWordLoop_spec 0#64 38#32 up (by decide)
  have hz : (0#64 : U64).toNat = 0 := rfl
  rw [hz, Nat.add_zero, show (38#32 : U32).toNat = 38 by rfl] at v4
  rw [l2] at l4
  change (bnMulWord up 38#32).length = 9 at l4
  change value (bnMulWord up 38#32) = value up * 38 at v4
  obtain ⟨u0, e5, l5, v5⟩ := bnSlice_value 256 (bnMulWord up 38#32) 0 (by rw [l4, bnN_256]; decide)
  rw [bnN_256] at l5 v5
  simp only [Nat.zero_div, Nat.mul_zero, pow_zero, Nat.div_one] at v5
  have h8 := getElem_of_value (bnMulWord up 38#32) 8 (by omega)
  have hlt8 : value (bnMulWord up 38#32) / 2 ^ (32 * 8) < 38 := by
    rw [Nat.div_lt_iff_lt_mul (by positivity), v4, v2, Nat.mul_comm]
    exact Nat.mul_lt_mul_of_pos_left hq (by decide)
  rw [Nat.mod_eq_of_lt (by omega)] at h8
  obtain ⟨s, e6, l6, v6⟩ := ecAdd_res u0 lo l5 l3
  obtain ⟨l7, v7⟩ := bnOfU32_spec 256 (by decide) ((bnMulWord up 38#32)[8] * 38#32)
  rw [BitVec.toNat_mul, show (38#32 : U32).toNat = 38 by rfl, h8, Nat.mod_eq_of_lt (by omega)] at v7
  obtain ⟨r, e8, l8, v8⟩ := ecAdd_res s (bnOfU32 256 ((bnMulWord up 38#32)[8] * 38#32)) l6 l7
  refine ⟨r, ?_, l8, ?_⟩
  · rw [ecMul, e1, loop_ok_bind, e2, loop_ok_bind, e3, loop_ok_bind]
    dsimp only
    rw [e5, loop_ok_bind, rd_ok (by omega), loop_ok_bind, e6, loop_ok_bind]
    exact e8
  · rw [v8, v6]
    simp only [res]
    rw [v5, v3, v7, ← Nat.cast_mul, ← v1, split256 (value x), ← v2]
    have := split256 (value (bnMulWord up 38#32))
    conv_lhs at this => rw [v4]
    push_cast at this ⊢
    linear_combination -this

theorem ecSquare_res (a : List U32) (ha : a.length = 8) : ∃ r, ecSquare a = .ok r ∧ r.length = 8 ∧ res r = res a ^ 2 := by
  obtain ⟨r, e, l, v⟩ := ecMul_res a a ha ha
  exact ⟨r, e, l, by rw [v, sq]⟩

theorem ecSub_spec (a b : List U32) (ha : a.length = 8) (hb : b.length = 8) :
    (ecSub a b).length = 8 ∧ ∃ c, value (ecSub a b) + value b = value a + p25519 * c := by
  have h1 := bnSub_spec a b (by omega)
  have l1 := bnSub_length a b (by omega)
  have b1 := value_lt a
  have b2 := value_lt b
  have bo := bnSub_borrow a b (by omega)
  rw [ha] at h1 l1 b1
  rw [hb] at b2
  obtain ⟨m1, k1⟩ := if_mod_value (bnSub a b).1
  have h2 := bnAdd_spec (bnSub a b).2 (if (bnSub a b).1 then ecModulus else ecZero) (by omega)
  have l2 := bnAdd_length (bnSub a b).2 (if (bnSub a b).1 then ecModulus else ecZero) (by omega)
  rw [l1, m1] at h2
  rw [l1] at l2
  obtain ⟨m2, k2⟩ := if_mod_value ((bnSub a b).1 && !(bnAdd (bnSub a b).2 (if (bnSub a b).1 then ecModulus else ecZero)).1)
  have hr : ecSub a b = (bnAdd (bnAdd (bnAdd (bnSub a b).2 (if (bnSub a b).1 then ecModulus else ecZero)).2
      (if (bnSub a b).1 && !(bnAdd (bnSub a b).2 (if (bnSub a b).1 then ecModulus else ecZero)).1 then ecModulus else ecZero)).2
      (if (bnSub a b).1 && !(bnAdd (bnSub a b).2 (if (bnSub a b).1 then ecModulus else ecZero)).1 &&
        !(bnAdd (bnAdd (bnSub a b).2 (if (bnSub a b).1 then ecModulus else ecZero)).2
      (if (bnSub a b).1 && !(bnAdd (bnSub a b).2 (if (bnSub a b).1 then ecModulus else ecZero)).1 then ecModulus else ecZero)).1 then ecModulus else ecZero)).2 := rfl
  rw [hr]
  generalize hs : (bnSub a b).2 = s at *
  generalize hc : (bnSub a b).1 = uf at *
  generalize hs2 : (bnAdd s (if uf then ecModulus else ecZero)).2 = s2 at *
  generalize hc2 : (bnAdd s (if uf then ecModulus else ecZero)).1 = ov1 at *
  have h3 := bnAdd_spec s2 (if uf && !ov1 then ecModulus else ecZero) (by omega)
  have l3 := bnAdd_length s2 (if uf && !ov1 then ecModulus else ecZero) (by omega)
  rw [l2, m2] at h3
  rw [l2] at l3
  generalize hs3 : (bnAdd s2 (if uf && !ov1 then ecModulus else ecZero)).2 = s3 at *
  generalize hc3 : (bnAdd s2 (if uf && !ov1 then ecModulus else ecZero)).1 = ov2 at *
  obtain ⟨m3, k3⟩ := if_mod_value (uf && !ov1 && !ov2)
  have h4 := bnAdd_spec s3 (if uf && !ov1 && !ov2 then ecModulus else ecZero) (by omega)
  have l4 := bnAdd_length s3 (if uf && !ov1 && !ov2 then ecModulus else ecZero) (by omega)
  rw [l3, m3] at h4
  rw [l3] at l4
  generalize hs4 : (bnAdd s3 (if uf && !ov1 && !ov2 then ecModulus else ecZero)).2 = s4 at *
  generalize hc4 : (bnAdd s3 (if uf && !ov1 && !ov2 then ecModulus else ecZero)).1 = ov3 at *
  refine ⟨l4, ?_⟩
  have q2 := value_lt s2
  have q3 := value_lt s3
  have q4 := value_lt s4
  rw [l2] at q2
  rw [l3] at q3
  rw [l4] at q4
  have q1 := value_lt s
  rw [l1] at q1
  have hp := p_big
  rw [pow256] at *
  cases uf
  · simp only [Bool.false_eq_true, if_false, Bool.false_and, Nat.mul_zero, Nat.add_zero] at *
    cases ov1 <;> cases ov2 <;> cases ov3 <;> simp at h2 h3 h4 <;> first | exact ⟨0, by omega⟩ | omega
  · have hlt := bo.mp rfl
    cases ov1 <;> cases ov2 <;> cases ov3 <;> simp at h1 h2 h3 h4 <;>
      first | exact ⟨1, by omega⟩ | exact ⟨2, by omega⟩ | exact ⟨3, by omega⟩ | omega

theorem ecSub_res (a b : List U32) (ha : a.length = 8) (hb : b.length = 8) : (ecSub a b).length = 8 ∧ res (ecSub a b) = res a - res b := by
  obtain ⟨l, c, h⟩ := ecSub_spec a b ha hb
  refine ⟨l, ?_⟩
  have := congrArg (Nat.cast : Nat → ZMod p25519) h
  push_cast at this
  rw [show ((p25519 : Nat) : ZMod p25519) = 0 from ZMod.natCast_self _, zero_mul, add_zero] at this
  rw [eq_sub_iff_add_eq]
  exact this

theorem ecApplyModulus_spec (v : List U32) (hv : v.length = 8) :
    (ecApplyModulus v).length = 8 ∧ value (ecApplyModulus v) = value v % p25519 := by
  have step : ∀ v : List U32, v.length = 8 → (bnAdd (bnSub v ecModulus).2 (if (bnSub v ecModulus).1 then ecModulus else ecZero)).2.length = 8 ∧
      value (bnAdd (bnSub v ecModulus).2 (if (bnSub v ecModulus).1 then ecModulus else ecZero)).2 =
        if value v < p25519 then value v else value v - p25519 := by
    intro v hv
    obtain ⟨mv, ml⟩ := ecModulus_value
    have h1 := bnSub_spec v ecModulus (by omega)
    have l1 := bnSub_length v ecModulus (by omega)
    have bo := bnSub_borrow v ecModulus (by omega)
    rw [hv, mv] at h1
    rw [hv] at l1
    rw [mv] at bo
    obtain ⟨m1, k1⟩ := if_mod_value (bnSub v ecModulus).1
    have h2 := bnAdd_spec (bnSub v ecModulus).2 (if (bnSub v ecModulus).1 then ecModulus else ecZero) (by omega)
    have l2 := bnAdd_length (bnSub v ecModulus).2 (if (bnSub v ecModulus).1 then ecModulus else ecZero) (by omega)
    rw [l1, m1] at h2
    rw [l1] at l2
    refine ⟨l2, ?_⟩
    have q := value_lt v
    have q2 := value_lt (bnAdd (bnSub v ecModulus).2 (if (bnSub v ecModulus).1 then ecModulus else ecZero)).2
    rw [l2] at q2
    rw [hv] at q
    generalize (bnAdd (bnSub v ecModulus).2 (if (bnSub v ecModulus).1 then ecModulus else ecZero)).2 = r at *
    generalize (bnAdd (bnSub v ecModulus).2 (if (bnSub v ecModulus).1 then ecModulus else ecZero)).1 = c at *
    generalize (bnSub v ecModulus).1 = uf at *
    have hp := p_big
    rw [pow256] at *
    cases uf <;> cases c <;> simp at h1 h2 bo <;> first | rw [if_pos bo]; omega | rw [if_neg (by omega)]; omega | omega
  obtain ⟨l1, v1⟩ := step v hv
  have hr : ecApplyModulus v = (bnAdd (bnSub (bnAdd (bnSub v ecModulus).2 (if (bnSub v ecModulus).1 then ecModulus else ecZero)).2 ecModulus).2
    (if (bnSub (bnAdd (bnSub v ecModulus).2 (if (bnSub v ecModulus).1 then ecModulus else ecZero)).2 ecModulus).1 then ecModulus else ecZero)).2 := rfl
  rw [hr]
  generalize (bnAdd (bnSub v ecModulus).2 (if (bnSub v ecModulus).1 then ecModulus else ecZero)).2 = w at *
  obtain ⟨l2, v2⟩ := step w l1
  refine ⟨l2, ?_⟩
  rw [v2, v1]
  have q := value_lt v
  have hp := p_big
  rw [hv, pow256] at q
  by_cases h1 : value v < p25519
  · rw [if_pos h1, if_pos h1, Nat.mod_eq_of_lt h1]
  · rw [if_neg h1]
    by_cases h2 : value v - p25519 < p25519
    · rw [if_pos h2, Nat.mod_eq_sub_mod (by omega), Nat.mod_eq_of_lt h2]
    · rw [if_neg h2, Nat.mod_eq_sub_mod (by omega), Nat.mod_eq_sub_mod (by omega), Nat.mod_eq_of_lt (by omega)]

theorem ecSquareN_res (n : Nat) (a : List U32) (ha : a.length = 8) : ∃ r, ecSquareN n a = .ok r ∧ r.length = 8 ∧ res r = res a ^ (2 ^ n) := by
  exact loop_inv (fun i (s : List U32) => s.length = 8 ∧ res s = res a ^ (2 ^ i)) ⟨ha, by simp⟩ (by
    rintro i _ s ⟨hs, hv⟩
    obtain ⟨r, e, l, v⟩ := ecSquare_res s hs
    exact ⟨r, e, l, by rw [v, hv, ← pow_mul, ← pow_succ]⟩)

theorem ecInverse_res (z : List U32) (hz : z.length = 8) : ∃ r, ecInverse z = .ok r ∧ r.length = 8 ∧ res r = res z ^ (p25519 - 2) := by
  obtain ⟨z2, e1, l1, v1⟩ := ecSquare_res z hz
  obtain ⟨z4, e2, l2, v2⟩ := ecSquare_res z2 l1
  obtain ⟨z8, e3, l3, v3⟩ := ecSquare_res z4 l2
  obtain ⟨z9, e4, l4, v4⟩ := ecMul_res z8 z l3 hz
  obtain ⟨z11, e5, l5, v5⟩ := ecMul_res z9 z2 l4 l1
  obtain ⟨z22, e6, l6, v6⟩ := ecSquare_res z11 l5
  obtain ⟨z31, e7, l7, v7⟩ := ecMul_res z22 z9 l6 l4
  obtain ⟨a, e8, l8, v8⟩ := ecSquareN_res 5 z31 l7
  obtain ⟨b, e9, l9, v9⟩ := ecMul_res a z31 l8 l7
  obtain ⟨c, e10, l10, v10⟩ := ecSquareN_res 5 b l9
  obtain ⟨d, e11, l11, v11⟩ := ecMul_res c z31 l10 l7
  obtain ⟨t1, e12, l12, v12⟩ := ecSquareN_res 15 d l11
  obtain ⟨z30, e13, l13, v13⟩ := ecMul_res t1 d l12 l11
  obtain ⟨t2, e14, l14, v14⟩ := ecSquareN_res 30 z30 l13
  obtain ⟨z60, e15, l15, v15⟩ := ecMul_res t2 z30 l14 l13
  obtain ⟨t3, e16, l16, v16⟩ := ecSquareN_res 60 z60 l15
  obtain ⟨z120, e17, l17, v17⟩ := ecMul_res t3 z60 l16 l15
  obtain ⟨t4, e18, l18, v18⟩ := ecSquareN_res 120 z120 l17
  obtain ⟨z240, e19, l19, v19⟩ := ecMul_res t4 z120 l18 l17
  obtain ⟨t5, e20, l20, v20⟩ := ecSquareN_res 15 z240 l19
  obtain ⟨t6, e21, l21, v21⟩ := ecMul_res t5 c l20 l10
  obtain ⟨r, e22, l22, v22⟩ := ecMul_res t6 z11 l21 l5
  refine ⟨r, ?_, l22, ?_⟩
  · rw [ecInverse, e1, loop_ok_bind, e2, loop_ok_bind, e3, loop_ok_bind, e4, loop_ok_bind, e5, loop_ok_bind, e6, loop_ok_bind, e7, loop_ok_bind,
      e8, loop_ok_bind, e9, loop_ok_bind, e10, loop_ok_bind, e11, loop_ok_bind, e12, loop_ok_bind, e13, loop_ok_bind, e14, loop_ok_bind,
      e15, loop_ok_bind, e16, loop_ok_bind, e17, loop_ok_bind, e18, loop_ok_bind, e19, loop_ok_bind, e20, loop_ok_bind, e21, loop_ok_bind]
    exact e22
  · have w11 : res z11 = res z ^ 11 := by rw [v5, v4, v3, v2, v1]; ring
    have w9 : res z9 = res z ^ 9 := by rw [v4, v3, v2, v1]; ring
    have w31 : res z31 = res z ^ 31 := by rw [v7, v6, w11, w9]; ring
    have wb : res b = res z ^ (2 ^ 10 - 1) := by
      rw [v9, v8, w31, ← pow_mul, ← pow_add]; congr 1
    have wc : res c = res z ^ (2 ^ 15 - 2 ^ 5) := by rw [v10, wb, ← pow_mul]; congr 1
    have wd : res d = res z ^ (2 ^ 15 - 1) := by rw [v11, wc, w31, ← pow_add]; congr 1
    have w30 : res z30 = res z ^ (2 ^ 30 - 1) := by rw [v13, v12, wd, ← pow_mul, ← pow_add]; congr 1
    have w60 : res z60 = res z ^ (2 ^ 60 - 1) := by rw [v15, v14, w30, ← pow_mul, ← pow_add]; congr 1
    have w120 : res z120 = res z ^ (2 ^ 120 - 1) := by
      rw [v17, v16, w60, ← pow_mul, ← pow_add]
      exact congrArg _ (by decide +kernel)
    have w240 : res z240 = res z ^ (2 ^ 240 - 1) := by
      rw [v19, v18, w120, ← pow_mul, ← pow_add]
      exact congrArg _ (by decide +kernel)
    rw [v22, v21, v20, w240, wc, w11, ← pow_mul, ← pow_add, ← pow_add]
    exact congrArg _ (by decide +kernel)

/-- The scalar used by the ladder: `normalize` of a 256-bit number. -/
theorem ecNormalize_spec (k : List U32) (hk : k.length = 8) :
    ∃ r, ecNormalize k = .ok r ∧ r.length = 8 ∧ value r = value k % 2 ^ 254 / 8 * 8 + 2 ^ 254 := by
  obtain ⟨a, e1, l1, v1⟩ := bnClearBit_spec k 0 (by omega)
  obtain ⟨b, e2, l2, v2⟩ := bnClearBit_spec a 1 (by omega)
  obtain ⟨c, e3, l3, v3⟩ := bnClearBit_spec b 2 (by omega)
  obtain ⟨d, e4, l4, v4⟩ := bnSetBit_spec c 254 (by omega)
  obtain ⟨r, e5, l5, v5⟩ := bnClearBit_spec d 255 (by omega)
  refine ⟨r, ?_, by omega, ?_⟩
  · rw [ecNormalize, e1, loop_ok_bind, e2, loop_ok_bind, e3, loop_ok_bind, e4, loop_ok_bind]
    exact e5
  · apply Nat.eq_of_testBit_eq
    intro m
    have hlt := value_lt k
    rw [hk] at hlt
    have hor : value k % 2 ^ 254 / 8 * 8 + 2 ^ 254 = 2 ^ 254 * 1 ||| (value k % 2 ^ 254 / 8 * 8) := by
      rw [← Nat.two_pow_add_eq_or_of_lt (by
        have := Nat.mod_lt (value k) (show 0 < 2 ^ 254 by decide +kernel)
        exact lt_of_le_of_lt (Nat.div_mul_le_self _ _) this), Nat.mul_one, Nat.add_comm]
    rw [v5, v4, Nat.testBit_or, v3, v2, v1, Nat.testBit_two_pow, hor, Nat.testBit_or, Nat.mul_one, Nat.testBit_two_pow,
      show (8 : Nat) = 2 ^ 3 by rfl, Nat.mul_comm (_ / _), Nat.testBit_two_pow_mul, Nat.testBit_div_two_pow, Nat.testBit_mod_two_pow]
    by_cases hm : m < 254
    · by_cases h3 : 3 ≤ m
      · have : m - 3 + 3 = m := by omega
        simp [hm, h3, this]
        have h0 : m ≠ 0 := by omega
        have h1 : m ≠ 1 := by omega
        have h2 : m ≠ 2 := by omega
        have h4 : ¬ 254 = m := by omega
        have h5 : m ≠ 255 := by omega
        simp [h0, h1, h2, h4, h5]
      · have h4 : ¬ 254 = m := by omega
        interval_cases m <;> simp
    · by_cases h4 : m = 254
      · subst h4; simp
      · by_cases h5 : m = 255
        · subst h5; simp
        · have hb : (value k).testBit m = false := by
            apply Nat.testBit_lt_two_pow
            exact lt_of_lt_of_le hlt (Nat.pow_le_pow_right (by decide) (by omega))
          have h6 : ¬ 254 = m := by omega
          have h7 : ¬ (m - 3 + 3 < 254) := by omega
          simp [hb, h6]
          intro _ h; omega

/-- The coordinates of the ladder are those of the abstract one. -/
def LadOk (s : LadderState) (l : Lad (ZMod p25519)) : Prop :=
  s.x2.length = 8 ∧ s.z2.length = 8 ∧ s.x3.length = 8 ∧ s.z3.length = 8 ∧
  res (if s.swap then s.x3 else s.x2) = l.x2 ∧ res (if s.swap then s.z3 else s.z2) = l.z2 ∧
  res (if s.swap then s.x2 else s.x3) = l.x3 ∧ res (if s.swap then s.z2 else s.z3) = l.z3

theorem swap_fst (b : Bool) (x y : List U32) (h : x.length = y.length) : (bnCtimeSwap b x y).1 = (if b then y else x) ∧ (bnCtimeSwap b x y).2 = (if b then x else y) := by
  rw [bnCtimeSwap_eq b x y h]; cases b <;> simp

theorem ite_len {b : Bool} {x y : List U32} (hx : x.length = 8) (hy : y.length = 8) : (if b then x else y).length = 8 := by cases b <;> simp [hx, hy]

/-- Arithmetic part of the loop body. -/
theorem core_spec (u x2 z2 x3 z3 : List U32) (kt : Bool) (hu : u.length = 8) (h1 : x2.length = 8) (h2 : z2.length = 8) (h3 : x3.length = 8) (h4 : z3.length = 8) :
    ∃ s : LadderState, (do
      let A ← ecAdd x2 z2
      let AA ← ecSquare A
      let B := ecSub x2 z2
      let BB ← ecSquare B
      let E := ecSub AA BB
      let C ← ecAdd x3 z3
      let D := ecSub x3 z3
      let DA ← ecMul D A
      let CB ← ecMul C B
      let x3 ← ecAdd DA CB
      let x3 ← ecSquare x3
      let z3 ← ecSquare (ecSub DA CB)
      let z3 ← ecMul u z3
      let x2 ← ecMul AA BB
      let z2 ← ecMulWord E 121665#32
      let z2 ← ecAdd AA z2
      let z2 ← ecMul E z2
      return (⟨x2, z2, x3, z3, kt⟩ : LadderState)) = Except.ok s ∧
      s.x2.length = 8 ∧ s.z2.length = 8 ∧ s.x3.length = 8 ∧ s.z3.length = 8 ∧ s.swap = kt ∧
      (res s.x2, res s.z2) = xDbl 121665 (res x2) (res z2) ∧ (res s.x3, res s.z3) = xAdd (res u) (res x2) (res z2) (res x3) (res z3) := by
  obtain ⟨A, e1, l1, v1⟩ := ecAdd_res x2 z2 h1 h2
  obtain ⟨AA, e2, l2, v2⟩ := ecSquare_res A l1
  obtain ⟨lB, vB⟩ := ecSub_res x2 z2 h1 h2
  obtain ⟨BB, e3, l3, v3⟩ := ecSquare_res _ lB
  obtain ⟨lE, vE⟩ := ecSub_res AA BB l2 l3
  obtain ⟨C, e4, l4, v4⟩ := ecAdd_res x3 z3 h3 h4
  obtain ⟨lD, vD⟩ := ecSub_res x3 z3 h3 h4
  obtain ⟨DA, e5, l5, v5⟩ := ecMul_res _ A lD l1
  obtain ⟨CB, e6, l6, v6⟩ := ecMul_res C _ l4 lB
  obtain ⟨t1, e7, l7, v7⟩ := ecAdd_res DA CB l5 l6
  obtain ⟨t2, e8, l8, v8⟩ := ecSquare_res t1 l7
  obtain ⟨l9', v9'⟩ := ecSub_res DA CB l5 l6
  obtain ⟨t3, e9, l9, v9⟩ := ecSquare_res _ l9'
  obtain ⟨t4, e10, l10, v10⟩ := ecMul_res u t3 hu l9
  obtain ⟨t5, e11, l11, v11⟩ := ecMul_res AA BB l2 l3
  obtain ⟨t6, e12, l12, v12⟩ := ecMulWord_res _ 121665#32 lE
  obtain ⟨t7, e13, l13, v13⟩ := ecAdd_res AA t6 l2 l12
  obtain ⟨t8, e14, l14, v14⟩ := ecMul_res _ t7 lE l13
  refine ⟨⟨t5, t8, t2, t4, kt⟩, ?_, l11, l14, l8, l10, rfl, ?_, ?_⟩
  · rw [e1, loop_ok_bind, e2, loop_ok_bind]
    dsimp only
    rw [e3, loop_ok_bind]
    rw [e4, loop_ok_bind, e5, loop_ok_bind, e6, loop_ok_bind, e7, loop_ok_bind, e8, loop_ok_bind, e9, loop_ok_bind, e10, loop_ok_bind,
      e11, loop_ok_bind, e12, loop_ok_bind, e13, loop_ok_bind, e14, loop_ok_bind]
    rfl
  · have hc : (((121665#32 : U32).toNat : Nat) : ZMod p25519) = 121665 := by
      rw [show (121665#32 : U32).toNat = 121665 by rfl]; rfl
    simp only [xDbl, v11, v14, v13, v12, vE, v3, v2, v1, vB, hc]
    refine Prod.ext rfl ?_
    simp only []
    ring
  · simp only [xAdd, v10, v9, v9', v8, v7, v6, v5, v4, v1, vD, vB]

theorem ladderBody_spec (k u : List U32) (hu : u.length = 8) (hk : k.length = 8) (t : Nat) (ht : t < 256) (s : LadderState) (l : Lad (ZMod p25519))
    (h : LadOk s l) : ∃ s', ladderBody k u s t = .ok s' ∧ LadOk s' (lstep 121665 (res u) ((value k).testBit t) l) := by
  obtain ⟨h1, h2, h3, h4, g1, g2, g3, g4⟩ := h
  have hbit := bnBit_spec k t (by omega)
  have hkt : ((if (value k).testBit t then 1#32 else 0#32) != 0#32) = (value k).testBit t := by
    cases (value k).testBit t <;> rfl
  obtain ⟨a1, a2⟩ := swap_fst (s.swap ^^ (value k).testBit t) s.x2 s.x3 (by omega)
  obtain ⟨b1, b2⟩ := swap_fst (s.swap ^^ (value k).testBit t) s.z2 s.z3 (by omega)
  obtain ⟨s', e, m1, m2, m3, m4, m5, m6, m7⟩ := core_spec u (if (s.swap ^^ (value k).testBit t) then s.x3 else s.x2)
    (if (s.swap ^^ (value k).testBit t) then s.z3 else s.z2) (if (s.swap ^^ (value k).testBit t) then s.x2 else s.x3)
    (if (s.swap ^^ (value k).testBit t) then s.z2 else s.z3) ((value k).testBit t) hu (ite_len h3 h1) (ite_len h4 h2) (ite_len h1 h3) (ite_len h2 h4)
  refine ⟨s', ?_, m1, m2, m3, m4, ?_⟩
  · rw [ladderBody, hbit, loop_ok_bind]
    dsimp only
    rw [hkt, a1, a2, b1, b2]
    exact e
  · rw [m5]
    cases hb : (value k).testBit t
    · rw [hb] at m6 m7
      simp only [Bool.xor_false] at m6 m7
      rw [g1, g2] at m6
      rw [g1, g2, g3, g4] at m7
      simp only [lstep, Bool.false_eq_true, if_false]
      rw [← m6, ← m7]
      exact ⟨rfl, rfl, rfl, rfl⟩
    · rw [hb] at m6 m7
      have n1 : ∀ x y : List U32, (if (s.swap ^^ true) then x else y) = (if s.swap then y else x) := by
        intro x y; cases s.swap <;> rfl
      rw [n1, n1, g3, g4] at m6
      rw [n1, n1, n1, n1, g1, g2, g3, g4] at m7
      simp only [lstep, if_true]
      rw [← m6, ← m7]
      exact ⟨rfl, rfl, rfl, rfl⟩

/-- `X25519` runs the ladder for 256 bits and inverts. -/
theorem x25519_spec (k u : List U32) (hk : k.length = 8) (hu : u.length = 8) :
    ∃ r, x25519 k u = .ok r ∧ r.length = 8 ∧ value r < p25519 ∧
      res r = (lad 121665 (res u) 256 (value k % 2 ^ 254 / 8 * 8 + 2 ^ 254) 256).x2 *
        (lad 121665 (res u) 256 (value k % 2 ^ 254 / 8 * 8 + 2 ^ 254) 256).z2 ^ (p25519 - 2) := by
  obtain ⟨kn, e1, l1, v1⟩ := ecNormalize_spec k hk
  rw [← v1]
  have e2 := bnOfInit_spec 256 [1#32] (by decide)
  have e3 := bnOfInit_spec 256 [0#32] (by decide)
  set one : List U32 := [1#32].reverse ++ List.replicate (bnN 256 - [1#32].length) 0#32 with h1
  set zero : List U32 := [0#32].reverse ++ List.replicate (bnN 256 - [0#32].length) 0#32 with h0
  have ho : res one = 1 := by
    rw [res, show value one = 1 by decide +kernel]; simp
  have hz : res zero = 0 := by
    rw [res, show value zero = 0 by decide +kernel]; simp
  obtain ⟨s, e4, ok⟩ := loop_inv (n := 256) (s := (⟨one, zero, u, one, false⟩ : LadderState)) (body := fun s n => ladderBody kn u s (255 - n))
    (fun i (s : LadderState) => LadOk s (lad 121665 (res u) 256 (value kn) i))
    (by
      refine ⟨rfl, rfl, hu, rfl, ?_⟩
      simp only [Bool.false_eq_true, if_false, lad]
      exact ⟨ho, hz, trivial, ho⟩)
    (by
      intro i hi s h
      obtain ⟨s', e, h'⟩ := ladderBody_spec kn u hu l1 (255 - i) (by omega) s _ h
      exact ⟨s', e, by rw [lad]; exact h'⟩)
  obtain ⟨q1, q2, q3, q4, g1, g2, g3, g4⟩ := ok
  obtain ⟨a1, a2⟩ := swap_fst s.swap s.x2 s.x3 (by omega)
  obtain ⟨b1, b2⟩ := swap_fst s.swap s.z2 s.z3 (by omega)
  obtain ⟨iv, e5, l5, v5⟩ := ecInverse_res (if s.swap then s.z3 else s.z2) (ite_len q4 q2)
  obtain ⟨rv, e6, l6, v6⟩ := ecMul_res (if s.swap then s.x3 else s.x2) iv (ite_len q3 q1) l5
  obtain ⟨l7, v7⟩ := ecApplyModulus_spec rv l6
  refine ⟨ecApplyModulus rv, ?_, l7, ?_, ?_⟩
  · rw [x25519, e1, loop_ok_bind, e2, loop_ok_bind, e3, loop_ok_bind, e4, loop_ok_bind]
    dsimp only
    rw [a1, b1, e5, loop_ok_bind, e6, loop_ok_bind]
    rfl
  · rw [v7]; exact Nat.mod_lt _ (Nat.Prime.pos prime_25519)
  · rw [res, v7, ZMod.natCast_mod, ← g1, ← g2, ← v5]
    exact v6

end Verif.Proof
