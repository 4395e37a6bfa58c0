import Verif.Proof.X25519Curve
import Verif.Proof.Random

/-! Properties C46 - C51, C84, C85: include/caligo/x25519.h. An `ec_value` is a list of eight 32-bit words. -/

namespace Verif.Props
open Verif.Model Verif.Proof Verif.Spec

/-! ### C46 -/

theorem mod_of_zmod {x y : Nat} (h : (x : ZMod p25519) = (y : ZMod p25519)) : x % p25519 = y % p25519 :=
  (ZMod.natCast_eq_natCast_iff x y p25519).mp h

/-- C46, `operator+` -/
theorem C46_add (a b : List U32) (ha : a.length = 8) (hb : b.length = 8) :
    ∃ r, ecAdd a b = .ok r ∧ r.length = 8 ∧ value r % p25519 = (value a + value b) % p25519 := by
  obtain ⟨r, e, l, v⟩ := ecAdd_res a b ha hb
  exact ⟨r, e, l, mod_of_zmod (by rw [Nat.cast_add]; exact v)⟩

/-- A case that meets the hypotheses of `C46_add`. -/
example := C46_add (List.replicate 8 0xffffffff#32) (List.replicate 8 4#32) rfl rfl

/-- C46, `operator-`: the result plus the subtrahend is congruent to the minuend -/
theorem C46_sub (a b : List U32) (ha : a.length = 8) (hb : b.length = 8) :
    (ecSub a b).length = 8 ∧ (value (ecSub a b) + value b) % p25519 = value a % p25519 := by
  obtain ⟨l, c, h⟩ := ecSub_spec a b ha hb
  exact ⟨l, by rw [h, Nat.add_mul_mod_self_left]⟩

/-- A case that meets the hypotheses of `C46_sub`. -/
example := C46_sub (List.replicate 8 1#32) (List.replicate 8 0xfffffff4#32) rfl rfl

/-- C46, `operator*` -/
theorem C46_mul (a b : List U32) (ha : a.length = 8) (hb : b.length = 8) :
    ∃ r, ecMul a b = .ok r ∧ r.length = 8 ∧ value r % p25519 = value a * value b % p25519 := by
  obtain ⟨r, e, l, v⟩ := ecMul_res a b ha hb
  exact ⟨r, e, l, mod_of_zmod (by rw [Nat.cast_mul]; exact v)⟩

/-- A case that meets the hypotheses of `C46_mul`. -/
example := C46_mul (List.replicate 8 0xffffffff#32) (List.replicate 8 0xffffffff#32) rfl rfl

/-- C46, `operator*` with a `uint32_t` -/
theorem C46_mulWord (a : List U32) (b : U32) (ha : a.length = 8) :
    ∃ r, ecMulWord a b = .ok r ∧ r.length = 8 ∧ value r % p25519 = value a * b.toNat % p25519 := by
  obtain ⟨r, e, l, v⟩ := ecMulWord_res a b ha
  exact ⟨r, e, l, mod_of_zmod (by rw [Nat.cast_mul]; exact v)⟩

/-- A case that meets the hypotheses of `C46_mulWord`. -/
example := C46_mulWord (List.replicate 8 0xffffffff#32) 121665#32 rfl

/-- C46, `square` -/
theorem C46_square (a : List U32) (ha : a.length = 8) :
    ∃ r, ecSquare a = .ok r ∧ r.length = 8 ∧ value r % p25519 = value a ^ 2 % p25519 := by
  obtain ⟨r, e, l, v⟩ := C46_mul a a ha ha
  exact ⟨r, e, l, by rw [v, sq]⟩

/-- all ones, the largest representation -/
def maxRep : List U32 := List.replicate 8 0xFFFFFFFF#32

example : maxRep.length = 8 ∧ value maxRep % p25519 = 37 := by decide +kernel
example : ecAdd maxRep maxRep = .ok [74#32, 0#32, 0#32, 0#32, 0#32, 0#32, 0#32, 0#32] := by decide +kernel
example : ecMul maxRep maxRep = .ok [1369#32, 0#32, 0#32, 0#32, 0#32, 0#32, 0#32, 0#32] := by decide +kernel

/-! ### C47 -/

/-- C47, `applyModulus` gives the canonical residue. -/
theorem C47_applyModulus (v : List U32) (hv : v.length = 8) :
    (ecApplyModulus v).length = 8 ∧ value (ecApplyModulus v) = value v % p25519 := ecApplyModulus_spec v hv

/-- A case that meets the hypotheses of `C47_applyModulus`. -/
example := C47_applyModulus (List.replicate 8 0xffffffff#32) rfl

/-- C47 in full: the three comparisons compare residues. -/
def C47_claim : Prop := ∀ a b : List U32, a.length = 8 → b.length = 8 →
  (ecEq a b = true ↔ value a % p25519 = value b % p25519) ∧ (ecNe a b = true ↔ value a % p25519 ≠ value b % p25519) ∧
  (ecLt a b = true ↔ value a % p25519 < value b % p25519)

/-- C47 fails: `!=` compares representations, so that the prime is "not equal" to zero although `==` holds. -/
theorem C47_false : ¬ C47_claim := by
  intro h
  have h1 := (h ecModulus ecZero rfl rfl).2.1.mp (by decide +kernel)
  exact h1 (by decide +kernel)

/-- C47 for `==`, `<` and what `!=` does: it is the negation of equality of the representations, so it is right exactly when the two
representations agree or the residues differ. Missing: `!=` on residues, which is false. -/
theorem C47_partial (a b : List U32) (ha : a.length = 8) (hb : b.length = 8) :
    (ecEq a b = true ↔ value a % p25519 = value b % p25519) ∧ (ecLt a b = true ↔ value a % p25519 < value b % p25519) ∧
    (ecNe a b = true ↔ value a ≠ value b) ∧ (value a < p25519 → value b < p25519 → (ecNe a b = true ↔ value a % p25519 ≠ value b % p25519)) := by
  obtain ⟨la, va⟩ := ecApplyModulus_spec a ha
  obtain ⟨lb, vb⟩ := ecApplyModulus_spec b hb
  have hne : ecNe a b = true ↔ value a ≠ value b := by
    rw [ecNe, Bool.not_eq_true', ← Bool.not_eq_true, bnEq_iff a b (by omega)]
    exact not_congr ⟨fun h => by rw [h], value_inj (by omega)⟩
  refine ⟨?_, ?_, hne, fun h1 h2 => ?_⟩
  · rw [ecEq, bnEq_iff _ _ (by omega), ← va, ← vb]
    exact ⟨fun h => by rw [h], value_inj (by omega)⟩
  · rw [ecLt, ← va, ← vb]
    exact bnSub_borrow _ _ (by omega)
  · rw [Nat.mod_eq_of_lt h1, Nat.mod_eq_of_lt h2]; exact hne

example : ecEq maxRep [37#32, 0#32, 0#32, 0#32, 0#32, 0#32, 0#32, 0#32] = true := by decide +kernel

/-! ### C48 -/

/-- C48: `inverse`. -/
theorem C48_inverse (z : List U32) (hz : z.length = 8) :
    ∃ i, ecInverse z = .ok i ∧ i.length = 8 ∧ (¬ p25519 ∣ value z → value i * value z % p25519 = 1) ∧ (p25519 ∣ value z → value i % p25519 = 0) := by
  obtain ⟨i, e, l, v⟩ := ecInverse_res z hz
  rw [pow_inv] at v
  have hp := p_big
  refine ⟨i, e, l, fun h => ?_, fun h => ?_⟩
  · have hne : res z ≠ 0 := by
      rw [res, Ne, ZMod.natCast_eq_zero_iff]; exact h
    have : ((value i * value z : Nat) : ZMod p25519) = ((1 : Nat) : ZMod p25519) := by
      rw [Nat.cast_mul, Nat.cast_one]
      show res i * res z = 1
      rw [v, inv_mul_cancel₀ hne]
    have := mod_of_zmod this
    rwa [Nat.mod_eq_of_lt (show 1 < p25519 by omega)] at this
  · have hz0 : res z = 0 := by
      rw [res, ZMod.natCast_eq_zero_iff]; exact h
    have : ((value i : Nat) : ZMod p25519) = ((0 : Nat) : ZMod p25519) := by
      show res i = _
      rw [v, hz0, inv_zero, Nat.cast_zero]
    exact mod_of_zmod this

example : ¬ p25519 ∣ value maxRep ∧ p25519 ∣ value ecModulus := by decide +kernel

/-! ### C49 -/

/-- The result as a number: the RFC's function of the clamped scalar and of the whole 256-bit number `u`. -/
theorem x25519_rfc (k u : List U32) (hk : k.length = 8) (hu : u.length = 8) :
    ∃ r, x25519 k u = .ok r ∧ r.length = 8 ∧ value r = rfc7748 (value k % 2 ^ 254 / 8 * 8 + 2 ^ 254) (value u) := by
  obtain ⟨r, e, l, hlt, v⟩ := x25519_spec k u hk hu
  refine ⟨r, e, l, ?_⟩
  have hk1 : value k % 2 ^ 254 / 8 * 8 + 2 ^ 254 < 2 ^ 255 := by
    have := Nat.mod_lt (value k) (show 0 < 2 ^ 254 by decide +kernel)
    have := Nat.div_mul_le_self (value k % 2 ^ 254) 8
    omega
  have hk2 : value k % 2 ^ 254 / 8 * 8 + 2 ^ 254 < 2 ^ 256 := by omega
  have hk3 : (value k % 2 ^ 254 / 8 * 8 + 2 ^ 254) % 2 = 0 := by omega
  rw [rfc7748_eq, xmul_width 255 256 _ (by decide) (by decide) hk1 hk2 hk3]
  have : res r = xmul 256 (value k % 2 ^ 254 / 8 * 8 + 2 ^ 254) (res u) := v
  show _ = (xmul 256 (value k % 2 ^ 254 / 8 * 8 + 2 ^ 254) (res u)).val
  rw [← this, res, ZMod.val_natCast, Nat.mod_eq_of_lt hlt]

theorem leNat_encodeLE (n x : Nat) : (encodeLE n x).length = n ∧ leNat (encodeLE n x) = x % 2 ^ (8 * n) := by
  refine ⟨by simp [encodeLE], ?_⟩
  induction n generalizing x with
  | zero => simp [encodeLE, leNat, Nat.mod_one]
  | succ n ih =>
    have e : encodeLE (n + 1) x = BitVec.ofNat 8 x :: encodeLE n (x / 2 ^ 8) := by
      simp only [encodeLE, List.range_succ_eq_map, List.map_cons, List.map_map, Nat.mul_zero, pow_zero, Nat.div_one, List.cons.injEq, true_and]
      apply List.map_congr_left
      intro i _
      simp only [Function.comp]
      rw [Nat.div_div_eq_div_mul, ← pow_add, show 8 * (i + 1) = 8 + 8 * i by ring]
    rw [e, leNat, ih, BitVec.toNat_ofNat, show 8 * (n + 1) = 8 + 8 * n by ring, pow_add, Nat.mod_mul]

theorem asBytes_encode (r : List U32) (l : r.length = 8) : bnAsBytes r = encodeLE 32 (value r) := by
  obtain ⟨l1, v1⟩ := bnAsBytes_spec r
  obtain ⟨l2, v2⟩ := leNat_encodeLE 32 (value r)
  apply leNat_inj (by omega)
  have := value_lt r
  rw [l] at this
  rw [v1, v2, Nat.mod_eq_of_lt this]

/-- C49 in full: on 32-byte strings `X25519` is the function of RFC 7748. -/
def C49_claim : Prop := ∀ k u : List Byte, k.length = 32 → u.length = 32 →
  (x25519 (bnOfBytes 256 k) (bnOfBytes 256 u)).map bnAsBytes = .ok (rfcX25519 k u)

theorem ofBytes_32 (b : List Byte) (h : b.length = 32) : (bnOfBytes 256 b).length = 8 ∧ value (bnOfBytes 256 b) = leNat b := by
  obtain ⟨h1, h2⟩ := bnOfBytes_spec 256 b
  refine ⟨h1, ?_⟩
  rw [h2, List.take_of_length_le (by rw [h, bnN_256])]

/-- C49, what is computed for every pair of strings: the RFC's function without masking the most significant bit of `u`. -/
theorem C49_exact (k u : List Byte) (hk : k.length = 32) (hu : u.length = 32) :
    (x25519 (bnOfBytes 256 k) (bnOfBytes 256 u)).map bnAsBytes = .ok (encodeLE 32 (rfc7748 (decodeScalar k) (leNat u))) := by
  obtain ⟨lk, vk⟩ := ofBytes_32 k hk
  obtain ⟨lu, vu⟩ := ofBytes_32 u hu
  obtain ⟨r, e, l, v⟩ := x25519_rfc (bnOfBytes 256 k) (bnOfBytes 256 u) lk lu
  rw [vk, vu] at v
  rw [e]
  show Except.ok (bnAsBytes r) = _
  rw [asBytes_encode r l, v]
  rfl

/-- A case that meets the hypotheses of `C49_exact`. -/
example := C49_exact (List.replicate 32 3#8) (List.replicate 32 255#8) rfl rfl

/-- C49 holds for every `u` whose most significant bit is clear, canonical or not. Missing: `u` with the bit set, where the claim is false. -/
theorem C49_partial (k u : List Byte) (hk : k.length = 32) (hu : u.length = 32) (htop : leNat u < 2 ^ 255) :
    (x25519 (bnOfBytes 256 k) (bnOfBytes 256 u)).map bnAsBytes = .ok (rfcX25519 k u) := by
  rw [C49_exact k u hk hu, rfcX25519, decodeU, Nat.mod_eq_of_lt htop]

/-- A case that meets the hypotheses of `C49_partial`. -/
example := C49_partial (List.replicate 32 3#8) (List.replicate 32 9#8) rfl rfl (by decide +kernel)

/-- The string whose only bit is the most significant one. -/
def topBit : List Byte := List.replicate 31 0#8 ++ [0x80#8]

/-- C49 fails: for `u = 2^255` the RFC computes with 0, the code with 19. -/
theorem C49_false : ¬ C49_claim := by
  intro h
  have h1 := h (List.replicate 32 0#8) topBit (by decide) (by decide)
  rw [C49_exact _ _ (by decide) (by decide)] at h1
  have h2 := congrArg leNat (Except.ok.inj h1)
  rw [rfcX25519, (leNat_encodeLE _ _).2, (leNat_encodeLE _ _).2, natX_eq, natX_eq] at h2
  revert h2
  decide +kernel

example : (List.replicate 32 0x77#8).length = 32 ∧ leNat (List.replicate 32 0x77#8) < 2 ^ 255 := by decide +kernel

/-- The first test vector of RFC 7748 section 5.2. -/
example : rfc7748 (decodeScalar (encodeLE 32 31029842492115040904895560451863089656472772604678260265531221036453811406496))
    34426434033919594451155107781188821651316167215306631574996226621102155684838 =
    0x5285a2775507b454f7711c4903cfec324f088df24dea948e90c6e99d3755dac3 := by
  rw [natX_eq]; decide +kernel

/-! ### C84 -/

/-- C84: `X25519(k, u)` is the u-coordinate of `k' P` for every point `P` with u-coordinate `u` of curve25519 over any field that contains the
integers modulo the prime; `k'` is the clamped scalar. -/
theorem C84_scalar_multiple {K : Type} [Field K] [DecidableEq K] [Algebra (ZMod p25519) K] (k u : List U32) (hk : k.length = 8) (hu : u.length = 8)
    (v : K) (h : (curve25519 K).Nonsingular (algebraMap (ZMod p25519) K (value u)) v) :
    ∃ r, x25519 k u = .ok r ∧ r.length = 8 ∧ algebraMap (ZMod p25519) K (value r) =
      uCoord ((value k % 2 ^ 254 / 8 * 8 + 2 ^ 254) • (WeierstrassCurve.Affine.Point.some _ v h : (curve25519 K).Point)) := by
  obtain ⟨r, e, l, hlt, hv⟩ := x25519_spec k u hk hu
  refine ⟨r, e, l, ?_⟩
  have hk2 : value k % 2 ^ 254 / 8 * 8 + 2 ^ 254 < 2 ^ 256 := by
    have := Nat.mod_lt (value k) (show 0 < 2 ^ 254 by decide +kernel)
    have := Nat.div_mul_le_self (value k % 2 ^ 254) 8
    omega
  have hv' : res r = xmul 256 (value k % 2 ^ 254 / 8 * 8 + 2 ^ 254) (res u) := hv
  show algebraMap (ZMod p25519) K (res r) = _
  rw [hv']
  exact xmul_uCoord 256 _ (by decide) hk2 (by omega) (res u) v h

/-- There is such a point for every `u` (over the algebraic closure). -/
theorem C84_point_exists (u : List U32) : ∃ v : AlgebraicClosure (ZMod p25519),
    (curve25519 (AlgebraicClosure (ZMod p25519))).Nonsingular (algebraMap (ZMod p25519) _ (value u)) v := exists_point _

/-- The field of RFC 7748 is one. -/
theorem C84_prime : p25519.Prime := prime_25519

/-! ### C50 -/

/-- C50: key agreement, for all private keys and every common u-coordinate. -/
theorem C50_key_agreement (a b u : List U32) (ha : a.length = 8) (hb : b.length = 8) (hu : u.length = 8) :
    ∃ r, (x25519 b u >>= fun B => x25519 a B) = .ok r ∧ (x25519 a u >>= fun A => x25519 b A) = .ok r := by
  obtain ⟨B, e1, l1, _, v1⟩ := x25519_spec b u hb hu
  obtain ⟨A, e2, l2, _, v2⟩ := x25519_spec a u ha hu
  obtain ⟨r, e3, l3, q3, v3⟩ := x25519_spec a B ha l1
  obtain ⟨r', e4, l4, q4, v4⟩ := x25519_spec b A hb l2
  have bound : ∀ k : List U32, value k % 2 ^ 254 / 8 * 8 + 2 ^ 254 < 2 ^ 256 := by
    intro k
    have := Nat.mod_lt (value k) (show 0 < 2 ^ 254 by decide +kernel)
    have := Nat.div_mul_le_self (value k % 2 ^ 254) 8
    omega
  have even : ∀ k : List U32, (value k % 2 ^ 254 / 8 * 8 + 2 ^ 254) % 2 = 0 := by intro k; omega
  have hrr : r = r' := by
    apply value_inj (by omega)
    have h : res r = res r' := by
      have w1 : res B = xmul 256 (value b % 2 ^ 254 / 8 * 8 + 2 ^ 254) (res u) := v1
      have w2 : res A = xmul 256 (value a % 2 ^ 254 / 8 * 8 + 2 ^ 254) (res u) := v2
      have w3 : res r = xmul 256 (value a % 2 ^ 254 / 8 * 8 + 2 ^ 254) (res B) := v3
      have w4 : res r' = xmul 256 (value b % 2 ^ 254 / 8 * 8 + 2 ^ 254) (res A) := v4
      rw [w3, w4, w1, w2]
      exact xmul_comm 256 _ _ (by decide) (bound a) (bound b) (even a) (even b) (res u)
    have := mod_of_zmod (x := value r) (y := value r') h
    rwa [Nat.mod_eq_of_lt q3, Nat.mod_eq_of_lt q4] at this
  refine ⟨r, ?_, ?_⟩
  · rw [e1, loop_ok_bind, e3]
  · rw [e2, loop_ok_bind, e4, hrr]

/-- A case that meets the hypotheses of `C50_key_agreement`. -/
example := C50_key_agreement (List.replicate 8 3#32) (List.replicate 8 5#32) (List.replicate 8 9#32) rfl rfl rfl

/-- C50 for the base point 9 given as `ec_value{9}`. -/
theorem C50_base_point (a b : List U32) (ha : a.length = 8) (hb : b.length = 8) :
    ∃ r, (do let u ← bnOfInit 256 [9#32]; let B ← x25519 b u; x25519 a B) = .ok r ∧
      (do let u ← bnOfInit 256 [9#32]; let A ← x25519 a u; x25519 b A) = .ok r := by
  rw [bnOfInit_spec 256 [9#32] (by decide), loop_ok_bind, loop_ok_bind]
  generalize hu : ([9#32].reverse ++ List.replicate (bnN 256 - [9#32].length) 0#32 : List U32) = u
  exact C50_key_agreement a b u ha hb (by rw [← hu]; decide)

example : maxRep.length = 8 ∧ ecModulus.length = 8 := ⟨rfl, rfl⟩

/-! ### C51 -/

/-- C51: the result is canonical; it depends on bits 3..253 of `k` and on `u` modulo the prime only; `u` divisible by the prime gives 0. -/
theorem C51_canonical (k u : List U32) (hk : k.length = 8) (hu : u.length = 8) :
    ∃ r, x25519 k u = .ok r ∧ r.length = 8 ∧ value r < p25519 ∧ (value u % p25519 = 0 → value r = 0) := by
  obtain ⟨r, e, l, hlt, v⟩ := x25519_spec k u hk hu
  refine ⟨r, e, l, hlt, fun h => ?_⟩
  have hu0 : res u = 0 := by
    rw [res, ZMod.natCast_eq_zero_iff]; exact Nat.dvd_of_mod_eq_zero h
  rw [hu0, pow_inv, lad_zero 121665 256 _ (by decide) (by omega), inv_zero, mul_zero] at v
  have := mod_of_zmod (x := value r) (y := 0) (by rw [Nat.cast_zero]; exact v)
  rwa [Nat.mod_eq_of_lt hlt, Nat.zero_mod] at this

/-- A case that meets the hypotheses of `C51_canonical`. -/
example := C51_canonical (List.replicate 8 3#32) (List.replicate 8 9#32) rfl rfl

theorem C51_insensitive (k k' u u' : List U32) (hk : k.length = 8) (hk' : k'.length = 8) (hu : u.length = 8) (hu' : u'.length = 8)
    (hkk : ∀ i, 3 ≤ i → i ≤ 253 → (value k).testBit i = (value k').testBit i) (huu : value u % p25519 = value u' % p25519) :
    x25519 k u = x25519 k' u' := by
  obtain ⟨r, e, l, hlt, v⟩ := x25519_spec k u hk hu
  obtain ⟨r', e', l', hlt', v'⟩ := x25519_spec k' u' hk' hu'
  have hres : res u = res u' := (ZMod.natCast_eq_natCast_iff _ _ _).mpr huu
  have hks : value k % 2 ^ 254 / 8 = value k' % 2 ^ 254 / 8 := by
    apply Nat.eq_of_testBit_eq
    intro i
    rw [show (8 : Nat) = 2 ^ 3 by rfl, Nat.testBit_div_two_pow, Nat.testBit_div_two_pow, Nat.testBit_mod_two_pow, Nat.testBit_mod_two_pow]
    by_cases h : i + 3 < 254
    · simp [h, hkk (i + 3) (by omega) (by omega)]
    · simp [h]
  rw [hks, hres] at v
  have : r = r' := by
    apply value_inj (by omega)
    have := mod_of_zmod (show (value r : ZMod p25519) = (value r' : ZMod p25519) from v.trans v'.symm)
    rwa [Nat.mod_eq_of_lt hlt, Nat.mod_eq_of_lt hlt'] at this
  rw [e, e', this]

/-- different keys and representations that meet the hypotheses -/
example : (∀ i, 3 ≤ i → i ≤ 253 → (value ecZero).testBit i = (value [7#32, 0#32, 0#32, 0#32, 0#32, 0#32, 0#32, 0xC0000000#32]).testBit i) ∧
    value ecZero % p25519 = value ecModulus % p25519 := by
  refine ⟨fun i h1 h2 => ?_, by decide +kernel⟩
  interval_cases i <;> decide +kernel

/-! ### C85 -/

/-- C85: `random_private_key` always returns a clamped key: a multiple of 8 between `2^254` and `2^255`. It is the random number with the five
bits fixed, and clamping it again in `X25519` changes nothing. -/
theorem C85_random_key (s : RandState) :
    ∃ k, ecRandomKey s = .ok (k, (bnRandom 256 s).2) ∧ k.length = 8 ∧ value k % 8 = 0 ∧ 2 ^ 254 ≤ value k ∧ value k < 2 ^ 255 ∧
      (∀ i, 3 ≤ i → i ≤ 253 → (value k).testBit i = (value (bnRandom 256 s).1).testBit i) ∧
      value k % 2 ^ 254 / 8 * 8 + 2 ^ 254 = value k ∧ ecNormalize k = .ok k := by
  have hl : (bnRandom 256 s).1.length = 8 := genRandomB_length 32 2 (by decide) 8 8 s le_rfl
  obtain ⟨k, e, l, v⟩ := ecNormalize_spec (bnRandom 256 s).1 hl
  have hb := Nat.mod_lt (value (bnRandom 256 s).1) (show 0 < 2 ^ 254 by decide +kernel)
  have hlow : value (bnRandom 256 s).1 % 2 ^ 254 / 8 * 8 < 2 ^ 254 := lt_of_le_of_lt (Nat.div_mul_le_self _ _) hb
  have hfix : value k % 2 ^ 254 / 8 * 8 + 2 ^ 254 = value k := by
    rw [v, Nat.add_mod_right, Nat.mod_eq_of_lt hlow, Nat.mul_div_cancel _ (by decide)]
  refine ⟨k, ?_, l, ?_, ?_, ?_, ?_, hfix, ?_⟩
  · rw [ecRandomKey]
    show (ecNormalize (bnRandom 256 s).1 >>= _) = _
    rw [e]; rfl
  · rw [v]; omega
  · rw [v]; omega
  · rw [v]; omega
  · intro i h3 h4
    rw [v, show value (bnRandom 256 s).1 % 2 ^ 254 / 8 * 8 + 2 ^ 254 = 2 ^ 254 * 1 + value (bnRandom 256 s).1 % 2 ^ 254 / 8 * 8 by omega,
      Nat.testBit_two_pow_mul_add _ hlow, if_pos (by omega), show (8 : Nat) = 2 ^ 3 by rfl, Nat.mul_comm, Nat.testBit_two_pow_mul,
      Nat.testBit_div_two_pow, Nat.testBit_mod_two_pow]
    have : i - 3 + 3 = i := by omega
    simp [h3, this]
    intro h; omega
  · obtain ⟨r, e2, l2, v2⟩ := ecNormalize_spec k l
    rw [hfix] at v2
    rw [e2, value_inj (by omega) v2]

end Verif.Props
