import Mathlib.Tactic.IntervalCases
import Verif.Proof.Aes

/-! The branch number of `MixColumns`. -/

namespace Verif.Proof
open Verif Verif.Model Verif.Spec.Aes

/-- 1 for a byte that is not zero. -/
def nz (x : Byte) : Nat := if x = 0#8 then 0 else 1

/-- Coefficient `i` of a row of `MixColumns` times a byte: 2, 3, 1, 1. -/
def cf (i : Nat) (x : Byte) : Byte := if i = 0 then xtime x else if i = 1 then xtime x ^^^ x else x
/-- Division by 2. -/
def half (x : Byte) : Byte := (x >>> 1) ^^^ (if x.getLsbD 0 then 0x8d#8 else 0#8)
/-- The quotients by 3, byte `x` for `x`. -/
def thirds : Nat := 0x55a3a254a05657a1a45253a551a7a650ac5a5bad59afae585dabaa5ca85e5fa9bc4a4bbd49bfbe484dbbba4cb84e4fb945b3b244b04647b1b44243b541b7b6409c6a6b9d699f9e686d9b9a6c986e6f9965939264906667919462639561979660758382748076778184727385718786708c7a7b8d798f8e787d8b8a7c887e7f89dc2a2bdd29dfde282ddbda2cd82e2fd925d3d224d02627d1d42223d521d7d62035c3c234c03637c1c43233c531c7c630cc3a3bcd39cfce383dcbca3cc83e3fc915e3e214e01617e1e41213e511e7e610ec1a1bed19efee181debea1ce81e1fe9fc0a0bfd09fffe080dfbfa0cf80e0ff905f3f204f00607f1f40203f501f7f600
/-- Division by that coefficient. -/
def icf (i : Nat) (x : Byte) : Byte := if i = 0 then half x else if i = 1 then BitVec.ofNat 8 (Nat.shiftRight thirds (8 * x.toNat)) else x

theorem mixByte_cf (a b c d : Byte) : mixByte a b c d = cf 0 a ^^^ cf 1 b ^^^ cf 2 c ^^^ cf 3 d := rfl

set_option maxRecDepth 100000 in
theorem icf_table : ∀ i < 4, ∀ n < 256, icf i (cf i (BitVec.ofNat 8 n)) = BitVec.ofNat 8 n := by decide +kernel
theorem icf_cf (i : Nat) (hi : i < 4) (x : Byte) : icf i (cf i x) = x := by
  obtain ⟨n, h, rfl⟩ := byte_ofNat x; exact icf_table i hi n h

/-- The test for one minor. -/
def minorOk (p q r s : Nat) : Bool := !(decide (p < q)) || !(decide (r < s)) || (List.range 256).all (fun n => n == 0 ||
  cf ((p + 4 - s) % 4) (BitVec.ofNat 8 n) != cf ((q + 4 - s) % 4) (icf ((q + 4 - r) % 4) (cf ((p + 4 - r) % 4) (BitVec.ofNat 8 n))))

set_option maxRecDepth 100000 in
theorem minor_table : ∀ p < 4, ∀ q < 4, ∀ r < 4, ∀ s < 4, minorOk p q r s = true := by decide +kernel

/-- The minors of two rows and two columns do not vanish. -/
theorem minor (p q r s : Nat) (hp : p < 4) (hq : q < 4) (hr : r < 4) (hs : s < 4) (hpq : p < q) (hrs : r < s) (x y : Byte)
    (h1 : cf ((p + 4 - r) % 4) x = cf ((q + 4 - r) % 4) y) (h2 : cf ((p + 4 - s) % 4) x = cf ((q + 4 - s) % 4) y) : x = 0#8 := by
  have hy : y = icf ((q + 4 - r) % 4) (cf ((p + 4 - r) % 4) x) := by rw [h1, icf_cf _ (Nat.mod_lt _ (by decide))]
  rw [hy] at h2
  obtain ⟨n, h, rfl⟩ := byte_ofNat x
  have t := minor_table p hp q hq r hr s hs
  simp only [minorOk, Bool.or_eq_true, beq_iff_eq, hpq, hrs, decide_true, Bool.not_true, Bool.false_eq_true, false_or, List.all_eq_true, List.mem_range, bne_iff_ne, ne_eq] at t
  rcases t n h with h0 | h0
  · rw [h0]
  · exact absurd h2 h0

theorem xor_zero_iff (a b : Byte) : a ^^^ b = 0#8 ↔ a = b := by
  constructor
  · intro h
    have := congrArg (· ^^^ b) h
    simpa only [BitVec.xor_assoc, BitVec.xor_self, BitVec.xor_zero, BitVec.zero_xor] using this
  · rintro rfl; exact BitVec.xor_self

set_option maxRecDepth 100000 in
theorem single_table : ∀ n < 256, n ≠ 0 → xtime (BitVec.ofNat 8 n) ≠ 0#8 ∧ xtime (BitVec.ofNat 8 n) ^^^ BitVec.ofNat 8 n ≠ 0#8 ∧
    unmixByte (BitVec.ofNat 8 n) 0#8 0#8 0#8 ≠ 0#8 ∧ unmixByte 0#8 (BitVec.ofNat 8 n) 0#8 0#8 ≠ 0#8 ∧
    unmixByte 0#8 0#8 (BitVec.ofNat 8 n) 0#8 ≠ 0#8 ∧ unmixByte 0#8 0#8 0#8 (BitVec.ofNat 8 n) ≠ 0#8 := by decide +kernel

theorem single (x : Byte) (hx : x ≠ 0#8) : xtime x ≠ 0#8 ∧ xtime x ^^^ x ≠ 0#8 ∧ unmixByte x 0#8 0#8 0#8 ≠ 0#8 ∧ unmixByte 0#8 x 0#8 0#8 ≠ 0#8 ∧
    unmixByte 0#8 0#8 x 0#8 ≠ 0#8 ∧ unmixByte 0#8 0#8 0#8 x ≠ 0#8 := by
  obtain ⟨n, h, rfl⟩ := byte_ofNat x
  exact single_table n h (by rintro rfl; exact hx rfl)

theorem xtime_zero : xtime 0#8 = 0#8 := by decide

/-- Two bytes of a column, in different places, with the other two zero: at most one byte of the result is zero. -/
theorem pair (a : Nat → Byte) (p q r s : Nat) (hp : p < 4) (hq : q < 4) (hr : r < 4) (hs : s < 4) (hpq : p < q) (hrs : r < s)
    (h0 : ∀ i, i < 4 → i ≠ p → i ≠ q → a i = 0#8)
    (h1 : mixByte (a r) (a ((r + 1) % 4)) (a ((r + 2) % 4)) (a ((r + 3) % 4)) = 0#8)
    (h2 : mixByte (a s) (a ((s + 1) % 4)) (a ((s + 2) % 4)) (a ((s + 3) % 4)) = 0#8) : a p = 0#8 := by
  have cz : ∀ i, cf i 0#8 = 0#8 := fun i => by simp only [cf, xtime_zero, BitVec.xor_zero, ite_self]
  have red : ∀ r, r < 4 → mixByte (a r) (a ((r + 1) % 4)) (a ((r + 2) % 4)) (a ((r + 3) % 4)) = cf ((p + 4 - r) % 4) (a p) ^^^ cf ((q + 4 - r) % 4) (a q) := by
    intro r hr
    rw [mixByte_cf]
    interval_cases r <;> interval_cases p <;> interval_cases q <;> first | exact absurd hpq (by decide) | simp [h0, cz, BitVec.xor_comm]
  rw [red r hr, xor_zero_iff] at h1
  rw [red s hs, xor_zero_iff] at h2
  exact minor p q r s hp hq hr hs hpq hrs _ _ h1 h2

/-- One implication of the bookkeeping below. -/
def imp (h : List Bool) (g : List Bool) : Bool := !(h.all id) || g.all id

theorem imp_true {h g : List Bool} (hg : (∀ x ∈ h, x = true) → ∀ x ∈ g, x = true) : imp h g = true := by
  unfold imp
  by_cases hh : h.all id = true
  · have : g.all id = true := by
      rw [List.all_eq_true] at hh ⊢
      exact hg hh
    rw [this, Bool.or_true]
  · rw [Bool.not_eq_true] at hh
    rw [hh]; rfl

/-- What is known about which bytes of a column (`true`: zero) and of the result are zero. -/
def known (a b c d w x y z : Bool) : List Bool :=
  [imp [b, c, d, !a] [!w, !x, !y, !z],
   imp [a, c, d, !b] [!w, !x, !y, !z],
   imp [a, b, d, !c] [!w, !x, !y, !z],
   imp [a, b, c, !d] [!w, !x, !y, !z],
   imp [x, y, z, !w] [!a, !b, !c, !d],
   imp [w, y, z, !x] [!a, !b, !c, !d],
   imp [w, x, z, !y] [!a, !b, !c, !d],
   imp [w, x, y, !z] [!a, !b, !c, !d],
   imp [w, x, y, z] [a, b, c, d],
   imp [c, d, w, x] [a],
   imp [c, d, w, y] [a],
   imp [c, d, w, z] [a],
   imp [c, d, x, y] [a],
   imp [c, d, x, z] [a],
   imp [c, d, y, z] [a],
   imp [b, d, w, x] [a],
   imp [b, d, w, y] [a],
   imp [b, d, w, z] [a],
   imp [b, d, x, y] [a],
   imp [b, d, x, z] [a],
   imp [b, d, y, z] [a],
   imp [b, c, w, x] [a],
   imp [b, c, w, y] [a],
   imp [b, c, w, z] [a],
   imp [b, c, x, y] [a],
   imp [b, c, x, z] [a],
   imp [b, c, y, z] [a],
   imp [a, d, w, x] [b],
   imp [a, d, w, y] [b],
   imp [a, d, w, z] [b],
   imp [a, d, x, y] [b],
   imp [a, d, x, z] [b],
   imp [a, d, y, z] [b],
   imp [a, c, w, x] [b],
   imp [a, c, w, y] [b],
   imp [a, c, w, z] [b],
   imp [a, c, x, y] [b],
   imp [a, c, x, z] [b],
   imp [a, c, y, z] [b],
   imp [a, b, w, x] [c],
   imp [a, b, w, y] [c],
   imp [a, b, w, z] [c],
   imp [a, b, x, y] [c],
   imp [a, b, x, z] [c],
   imp [a, b, y, z] [c]]

set_option maxRecDepth 100000 in
theorem known_count : ∀ a b c d w x y z : Bool, (known a b c d w x y z).all id = true → (a && b && c && d) = false →
    5 ≤ (!a).toNat + (!b).toNat + (!c).toNat + (!d).toNat + ((!w).toNat + (!x).toNat + (!y).toNat + (!z).toNat) := by decide +kernel

theorem nz_eq (x : Byte) : nz x = (!decide (x = 0#8)).toNat := by
  unfold nz; by_cases h : x = 0#8 <;> simp [h]

/-- The branch number of `MixColumns` is 5. -/
theorem branch (a b c d : Byte) (h : ¬ (a = 0#8 ∧ b = 0#8 ∧ c = 0#8 ∧ d = 0#8)) :
    5 ≤ nz a + nz b + nz c + nz d + (nz (mixByte a b c d) + nz (mixByte b c d a) + nz (mixByte c d a b) + nz (mixByte d a b c)) := by
  have ua := unmix_mix a b c d
  have ub := unmix_mix b c d a
  have uc := unmix_mix c d a b
  have ud := unmix_mix d a b c
  have m : ∀ a b c d : Byte, mixByte a b c d = xtime a ^^^ (xtime b ^^^ b) ^^^ c ^^^ d := fun _ _ _ _ => rfl
  have pr := pair (fun i => if i = 0 then a else if i = 1 then b else if i = 2 then c else d)
  simp only [nz_eq]
  refine known_count _ _ _ _ _ _ _ _ ?_ (by simpa using h)
  rw [List.all_eq_true]
  intro x hx
  simp only [known, List.mem_cons, List.not_mem_nil, or_false] at hx
  have uz : unmixByte 0#8 0#8 0#8 0#8 = 0#8 := by decide
  rcases hx with rfl | rfl | rfl | rfl | rfl | rfl | rfl | rfl | rfl | rfl | rfl | rfl | rfl | rfl | rfl | rfl | rfl | rfl | rfl | rfl | rfl | rfl | rfl | rfl | rfl | rfl | rfl | rfl | rfl | rfl | rfl | rfl | rfl | rfl | rfl | rfl | rfl | rfl | rfl | rfl | rfl | rfl | rfl | rfl | rfl
  · refine imp_true fun hh => ?_
    simp only [List.forall_mem_cons, List.not_mem_nil, false_implies, implies_true, and_true, decide_eq_true_eq, Bool.not_eq_true', decide_eq_false_iff_not] at hh ⊢
    obtain ⟨rfl, rfl, rfl, hn⟩ := hh
    have := single _ hn
    simp only [m, xtime_zero, BitVec.xor_zero, BitVec.zero_xor]
    exact ⟨this.1, hn, hn, this.2.1⟩
  · refine imp_true fun hh => ?_
    simp only [List.forall_mem_cons, List.not_mem_nil, false_implies, implies_true, and_true, decide_eq_true_eq, Bool.not_eq_true', decide_eq_false_iff_not] at hh ⊢
    obtain ⟨rfl, rfl, rfl, hn⟩ := hh
    have := single _ hn
    simp only [m, xtime_zero, BitVec.xor_zero, BitVec.zero_xor]
    exact ⟨this.2.1, this.1, hn, hn⟩
  · refine imp_true fun hh => ?_
    simp only [List.forall_mem_cons, List.not_mem_nil, false_implies, implies_true, and_true, decide_eq_true_eq, Bool.not_eq_true', decide_eq_false_iff_not] at hh ⊢
    obtain ⟨rfl, rfl, rfl, hn⟩ := hh
    have := single _ hn
    simp only [m, xtime_zero, BitVec.xor_zero, BitVec.zero_xor]
    exact ⟨hn, this.2.1, this.1, hn⟩
  · refine imp_true fun hh => ?_
    simp only [List.forall_mem_cons, List.not_mem_nil, false_implies, implies_true, and_true, decide_eq_true_eq, Bool.not_eq_true', decide_eq_false_iff_not] at hh ⊢
    obtain ⟨rfl, rfl, rfl, hn⟩ := hh
    have := single _ hn
    simp only [m, xtime_zero, BitVec.xor_zero, BitVec.zero_xor]
    exact ⟨hn, hn, this.2.1, this.1⟩
  · refine imp_true fun hh => ?_
    simp only [List.forall_mem_cons, List.not_mem_nil, false_implies, implies_true, and_true, decide_eq_true_eq, Bool.not_eq_true', decide_eq_false_iff_not] at hh ⊢
    obtain ⟨h1, h2, h3, hn⟩ := hh
    have := single _ hn
    rw [h1, h2, h3] at ua ub uc ud
    exact ⟨fun e => this.2.2.1 (ua.trans e), fun e => this.2.2.2.2.2 (ub.trans e), fun e => this.2.2.2.2.1 (uc.trans e), fun e => this.2.2.2.1 (ud.trans e)⟩
  · refine imp_true fun hh => ?_
    simp only [List.forall_mem_cons, List.not_mem_nil, false_implies, implies_true, and_true, decide_eq_true_eq, Bool.not_eq_true', decide_eq_false_iff_not] at hh ⊢
    obtain ⟨h1, h2, h3, hn⟩ := hh
    have := single _ hn
    rw [h1, h2, h3] at ua ub uc ud
    exact ⟨fun e => this.2.2.2.1 (ua.trans e), fun e => this.2.2.1 (ub.trans e), fun e => this.2.2.2.2.2 (uc.trans e), fun e => this.2.2.2.2.1 (ud.trans e)⟩
  · refine imp_true fun hh => ?_
    simp only [List.forall_mem_cons, List.not_mem_nil, false_implies, implies_true, and_true, decide_eq_true_eq, Bool.not_eq_true', decide_eq_false_iff_not] at hh ⊢
    obtain ⟨h1, h2, h3, hn⟩ := hh
    have := single _ hn
    rw [h1, h2, h3] at ua ub uc ud
    exact ⟨fun e => this.2.2.2.2.1 (ua.trans e), fun e => this.2.2.2.1 (ub.trans e), fun e => this.2.2.1 (uc.trans e), fun e => this.2.2.2.2.2 (ud.trans e)⟩
  · refine imp_true fun hh => ?_
    simp only [List.forall_mem_cons, List.not_mem_nil, false_implies, implies_true, and_true, decide_eq_true_eq, Bool.not_eq_true', decide_eq_false_iff_not] at hh ⊢
    obtain ⟨h1, h2, h3, hn⟩ := hh
    have := single _ hn
    rw [h1, h2, h3] at ua ub uc ud
    exact ⟨fun e => this.2.2.2.2.2 (ua.trans e), fun e => this.2.2.2.2.1 (ub.trans e), fun e => this.2.2.2.1 (uc.trans e), fun e => this.2.2.1 (ud.trans e)⟩
  · refine imp_true fun hh => ?_
    simp only [List.forall_mem_cons, List.not_mem_nil, false_implies, implies_true, and_true, decide_eq_true_eq, Bool.not_eq_true', decide_eq_false_iff_not] at hh ⊢
    obtain ⟨h1, h2, h3, h4⟩ := hh
    rw [h1, h2, h3, h4, uz] at ua ub uc ud
    exact ⟨ua.symm, ub.symm, uc.symm, ud.symm⟩
  · refine imp_true fun hh => ?_
    simp only [List.forall_mem_cons, List.not_mem_nil, false_implies, implies_true, and_true, decide_eq_true_eq, Bool.not_eq_true', decide_eq_false_iff_not] at hh ⊢
    obtain ⟨g1, g2, h1, h2⟩ := hh
    exact pr 0 1 0 1 (by decide) (by decide) (by decide) (by decide) (by decide) (by decide)
      (fun i hi e1 e2 => by interval_cases i <;> first | exact absurd rfl e1 | exact absurd rfl e2 | exact g1 | exact g2) h1 h2
  · refine imp_true fun hh => ?_
    simp only [List.forall_mem_cons, List.not_mem_nil, false_implies, implies_true, and_true, decide_eq_true_eq, Bool.not_eq_true', decide_eq_false_iff_not] at hh ⊢
    obtain ⟨g1, g2, h1, h2⟩ := hh
    exact pr 0 1 0 2 (by decide) (by decide) (by decide) (by decide) (by decide) (by decide)
      (fun i hi e1 e2 => by interval_cases i <;> first | exact absurd rfl e1 | exact absurd rfl e2 | exact g1 | exact g2) h1 h2
  · refine imp_true fun hh => ?_
    simp only [List.forall_mem_cons, List.not_mem_nil, false_implies, implies_true, and_true, decide_eq_true_eq, Bool.not_eq_true', decide_eq_false_iff_not] at hh ⊢
    obtain ⟨g1, g2, h1, h2⟩ := hh
    exact pr 0 1 0 3 (by decide) (by decide) (by decide) (by decide) (by decide) (by decide)
      (fun i hi e1 e2 => by interval_cases i <;> first | exact absurd rfl e1 | exact absurd rfl e2 | exact g1 | exact g2) h1 h2
  · refine imp_true fun hh => ?_
    simp only [List.forall_mem_cons, List.not_mem_nil, false_implies, implies_true, and_true, decide_eq_true_eq, Bool.not_eq_true', decide_eq_false_iff_not] at hh ⊢
    obtain ⟨g1, g2, h1, h2⟩ := hh
    exact pr 0 1 1 2 (by decide) (by decide) (by decide) (by decide) (by decide) (by decide)
      (fun i hi e1 e2 => by interval_cases i <;> first | exact absurd rfl e1 | exact absurd rfl e2 | exact g1 | exact g2) h1 h2
  · refine imp_true fun hh => ?_
    simp only [List.forall_mem_cons, List.not_mem_nil, false_implies, implies_true, and_true, decide_eq_true_eq, Bool.not_eq_true', decide_eq_false_iff_not] at hh ⊢
    obtain ⟨g1, g2, h1, h2⟩ := hh
    exact pr 0 1 1 3 (by decide) (by decide) (by decide) (by decide) (by decide) (by decide)
      (fun i hi e1 e2 => by interval_cases i <;> first | exact absurd rfl e1 | exact absurd rfl e2 | exact g1 | exact g2) h1 h2
  · refine imp_true fun hh => ?_
    simp only [List.forall_mem_cons, List.not_mem_nil, false_implies, implies_true, and_true, decide_eq_true_eq, Bool.not_eq_true', decide_eq_false_iff_not] at hh ⊢
    obtain ⟨g1, g2, h1, h2⟩ := hh
    exact pr 0 1 2 3 (by decide) (by decide) (by decide) (by decide) (by decide) (by decide)
      (fun i hi e1 e2 => by interval_cases i <;> first | exact absurd rfl e1 | exact absurd rfl e2 | exact g1 | exact g2) h1 h2
  · refine imp_true fun hh => ?_
    simp only [List.forall_mem_cons, List.not_mem_nil, false_implies, implies_true, and_true, decide_eq_true_eq, Bool.not_eq_true', decide_eq_false_iff_not] at hh ⊢
    obtain ⟨g1, g2, h1, h2⟩ := hh
    exact pr 0 2 0 1 (by decide) (by decide) (by decide) (by decide) (by decide) (by decide)
      (fun i hi e1 e2 => by interval_cases i <;> first | exact absurd rfl e1 | exact absurd rfl e2 | exact g1 | exact g2) h1 h2
  · refine imp_true fun hh => ?_
    simp only [List.forall_mem_cons, List.not_mem_nil, false_implies, implies_true, and_true, decide_eq_true_eq, Bool.not_eq_true', decide_eq_false_iff_not] at hh ⊢
    obtain ⟨g1, g2, h1, h2⟩ := hh
    exact pr 0 2 0 2 (by decide) (by decide) (by decide) (by decide) (by decide) (by decide)
      (fun i hi e1 e2 => by interval_cases i <;> first | exact absurd rfl e1 | exact absurd rfl e2 | exact g1 | exact g2) h1 h2
  · refine imp_true fun hh => ?_
    simp only [List.forall_mem_cons, List.not_mem_nil, false_implies, implies_true, and_true, decide_eq_true_eq, Bool.not_eq_true', decide_eq_false_iff_not] at hh ⊢
    obtain ⟨g1, g2, h1, h2⟩ := hh
    exact pr 0 2 0 3 (by decide) (by decide) (by decide) (by decide) (by decide) (by decide)
      (fun i hi e1 e2 => by interval_cases i <;> first | exact absurd rfl e1 | exact absurd rfl e2 | exact g1 | exact g2) h1 h2
  · refine imp_true fun hh => ?_
    simp only [List.forall_mem_cons, List.not_mem_nil, false_implies, implies_true, and_true, decide_eq_true_eq, Bool.not_eq_true', decide_eq_false_iff_not] at hh ⊢
    obtain ⟨g1, g2, h1, h2⟩ := hh
    exact pr 0 2 1 2 (by decide) (by decide) (by decide) (by decide) (by decide) (by decide)
      (fun i hi e1 e2 => by interval_cases i <;> first | exact absurd rfl e1 | exact absurd rfl e2 | exact g1 | exact g2) h1 h2
  · refine imp_true fun hh => ?_
    simp only [List.forall_mem_cons, List.not_mem_nil, false_implies, implies_true, and_true, decide_eq_true_eq, Bool.not_eq_true', decide_eq_false_iff_not] at hh ⊢
    obtain ⟨g1, g2, h1, h2⟩ := hh
    exact pr 0 2 1 3 (by decide) (by decide) (by decide) (by decide) (by decide) (by decide)
      (fun i hi e1 e2 => by interval_cases i <;> first | exact absurd rfl e1 | exact absurd rfl e2 | exact g1 | exact g2) h1 h2
  · refine imp_true fun hh => ?_
    simp only [List.forall_mem_cons, List.not_mem_nil, false_implies, implies_true, and_true, decide_eq_true_eq, Bool.not_eq_true', decide_eq_false_iff_not] at hh ⊢
    obtain ⟨g1, g2, h1, h2⟩ := hh
    exact pr 0 2 2 3 (by decide) (by decide) (by decide) (by decide) (by decide) (by decide)
      (fun i hi e1 e2 => by interval_cases i <;> first | exact absurd rfl e1 | exact absurd rfl e2 | exact g1 | exact g2) h1 h2
  · refine imp_true fun hh => ?_
    simp only [List.forall_mem_cons, List.not_mem_nil, false_implies, implies_true, and_true, decide_eq_true_eq, Bool.not_eq_true', decide_eq_false_iff_not] at hh ⊢
    obtain ⟨g1, g2, h1, h2⟩ := hh
    exact pr 0 3 0 1 (by decide) (by decide) (by decide) (by decide) (by decide) (by decide)
      (fun i hi e1 e2 => by interval_cases i <;> first | exact absurd rfl e1 | exact absurd rfl e2 | exact g1 | exact g2) h1 h2
  · refine imp_true fun hh => ?_
    simp only [List.forall_mem_cons, List.not_mem_nil, false_implies, implies_true, and_true, decide_eq_true_eq, Bool.not_eq_true', decide_eq_false_iff_not] at hh ⊢
    obtain ⟨g1, g2, h1, h2⟩ := hh
    exact pr 0 3 0 2 (by decide) (by decide) (by decide) (by decide) (by decide) (by decide)
      (fun i hi e1 e2 => by interval_cases i <;> first | exact absurd rfl e1 | exact absurd rfl e2 | exact g1 | exact g2) h1 h2
  · refine imp_true fun hh => ?_
    simp only [List.forall_mem_cons, List.not_mem_nil, false_implies, implies_true, and_true, decide_eq_true_eq, Bool.not_eq_true', decide_eq_false_iff_not] at hh ⊢
    obtain ⟨g1, g2, h1, h2⟩ := hh
    exact pr 0 3 0 3 (by decide) (by decide) (by decide) (by decide) (by decide) (by decide)
      (fun i hi e1 e2 => by interval_cases i <;> first | exact absurd rfl e1 | exact absurd rfl e2 | exact g1 | exact g2) h1 h2
  · refine imp_true fun hh => ?_
    simp only [List.forall_mem_cons, List.not_mem_nil, false_implies, implies_true, and_true, decide_eq_true_eq, Bool.not_eq_true', decide_eq_false_iff_not] at hh ⊢
    obtain ⟨g1, g2, h1, h2⟩ := hh
    exact pr 0 3 1 2 (by decide) (by decide) (by decide) (by decide) (by decide) (by decide)
      (fun i hi e1 e2 => by interval_cases i <;> first | exact absurd rfl e1 | exact absurd rfl e2 | exact g1 | exact g2) h1 h2
  · refine imp_true fun hh => ?_
    simp only [List.forall_mem_cons, List.not_mem_nil, false_implies, implies_true, and_true, decide_eq_true_eq, Bool.not_eq_true', decide_eq_false_iff_not] at hh ⊢
    obtain ⟨g1, g2, h1, h2⟩ := hh
    exact pr 0 3 1 3 (by decide) (by decide) (by decide) (by decide) (by decide) (by decide)
      (fun i hi e1 e2 => by interval_cases i <;> first | exact absurd rfl e1 | exact absurd rfl e2 | exact g1 | exact g2) h1 h2
  · refine imp_true fun hh => ?_
    simp only [List.forall_mem_cons, List.not_mem_nil, false_implies, implies_true, and_true, decide_eq_true_eq, Bool.not_eq_true', decide_eq_false_iff_not] at hh ⊢
    obtain ⟨g1, g2, h1, h2⟩ := hh
    exact pr 0 3 2 3 (by decide) (by decide) (by decide) (by decide) (by decide) (by decide)
      (fun i hi e1 e2 => by interval_cases i <;> first | exact absurd rfl e1 | exact absurd rfl e2 | exact g1 | exact g2) h1 h2
  · refine imp_true fun hh => ?_
    simp only [List.forall_mem_cons, List.not_mem_nil, false_implies, implies_true, and_true, decide_eq_true_eq, Bool.not_eq_true', decide_eq_false_iff_not] at hh ⊢
    obtain ⟨g1, g2, h1, h2⟩ := hh
    exact pr 1 2 0 1 (by decide) (by decide) (by decide) (by decide) (by decide) (by decide)
      (fun i hi e1 e2 => by interval_cases i <;> first | exact absurd rfl e1 | exact absurd rfl e2 | exact g1 | exact g2) h1 h2
  · refine imp_true fun hh => ?_
    simp only [List.forall_mem_cons, List.not_mem_nil, false_implies, implies_true, and_true, decide_eq_true_eq, Bool.not_eq_true', decide_eq_false_iff_not] at hh ⊢
    obtain ⟨g1, g2, h1, h2⟩ := hh
    exact pr 1 2 0 2 (by decide) (by decide) (by decide) (by decide) (by decide) (by decide)
      (fun i hi e1 e2 => by interval_cases i <;> first | exact absurd rfl e1 | exact absurd rfl e2 | exact g1 | exact g2) h1 h2
  · refine imp_true fun hh => ?_
    simp only [List.forall_mem_cons, List.not_mem_nil, false_implies, implies_true, and_true, decide_eq_true_eq, Bool.not_eq_true', decide_eq_false_iff_not] at hh ⊢
    obtain ⟨g1, g2, h1, h2⟩ := hh
    exact pr 1 2 0 3 (by decide) (by decide) (by decide) (by decide) (by decide) (by decide)
      (fun i hi e1 e2 => by interval_cases i <;> first | exact absurd rfl e1 | exact absurd rfl e2 | exact g1 | exact g2) h1 h2
  · refine imp_true fun hh => ?_
    simp only [List.forall_mem_cons, List.not_mem_nil, false_implies, implies_true, and_true, decide_eq_true_eq, Bool.not_eq_true', decide_eq_false_iff_not] at hh ⊢
    obtain ⟨g1, g2, h1, h2⟩ := hh
    exact pr 1 2 1 2 (by decide) (by decide) (by decide) (by decide) (by decide) (by decide)
      (fun i hi e1 e2 => by interval_cases i <;> first | exact absurd rfl e1 | exact absurd rfl e2 | exact g1 | exact g2) h1 h2
  · refine imp_true fun hh => ?_
    simp only [List.forall_mem_cons, List.not_mem_nil, false_implies, implies_true, and_true, decide_eq_true_eq, Bool.not_eq_true', decide_eq_false_iff_not] at hh ⊢
    obtain ⟨g1, g2, h1, h2⟩ := hh
    exact pr 1 2 1 3 (by decide) (by decide) (by decide) (by decide) (by decide) (by decide)
      (fun i hi e1 e2 => by interval_cases i <;> first | exact absurd rfl e1 | exact absurd rfl e2 | exact g1 | exact g2) h1 h2
  · refine imp_true fun hh => ?_
    simp only [List.forall_mem_cons, List.not_mem_nil, false_implies, implies_true, and_true, decide_eq_true_eq, Bool.not_eq_true', decide_eq_false_iff_not] at hh ⊢
    obtain ⟨g1, g2, h1, h2⟩ := hh
    exact pr 1 2 2 3 (by decide) (by decide) (by decide) (by decide) (by decide) (by decide)
      (fun i hi e1 e2 => by interval_cases i <;> first | exact absurd rfl e1 | exact absurd rfl e2 | exact g1 | exact g2) h1 h2
  · refine imp_true fun hh => ?_
    simp only [List.forall_mem_cons, List.not_mem_nil, false_implies, implies_true, and_true, decide_eq_true_eq, Bool.not_eq_true', decide_eq_false_iff_not] at hh ⊢
    obtain ⟨g1, g2, h1, h2⟩ := hh
    exact pr 1 3 0 1 (by decide) (by decide) (by decide) (by decide) (by decide) (by decide)
      (fun i hi e1 e2 => by interval_cases i <;> first | exact absurd rfl e1 | exact absurd rfl e2 | exact g1 | exact g2) h1 h2
  · refine imp_true fun hh => ?_
    simp only [List.forall_mem_cons, List.not_mem_nil, false_implies, implies_true, and_true, decide_eq_true_eq, Bool.not_eq_true', decide_eq_false_iff_not] at hh ⊢
    obtain ⟨g1, g2, h1, h2⟩ := hh
    exact pr 1 3 0 2 (by decide) (by decide) (by decide) (by decide) (by decide) (by decide)
      (fun i hi e1 e2 => by interval_cases i <;> first | exact absurd rfl e1 | exact absurd rfl e2 | exact g1 | exact g2) h1 h2
  · refine imp_true fun hh => ?_
    simp only [List.forall_mem_cons, List.not_mem_nil, false_implies, implies_true, and_true, decide_eq_true_eq, Bool.not_eq_true', decide_eq_false_iff_not] at hh ⊢
    obtain ⟨g1, g2, h1, h2⟩ := hh
    exact pr 1 3 0 3 (by decide) (by decide) (by decide) (by decide) (by decide) (by decide)
      (fun i hi e1 e2 => by interval_cases i <;> first | exact absurd rfl e1 | exact absurd rfl e2 | exact g1 | exact g2) h1 h2
  · refine imp_true fun hh => ?_
    simp only [List.forall_mem_cons, List.not_mem_nil, false_implies, implies_true, and_true, decide_eq_true_eq, Bool.not_eq_true', decide_eq_false_iff_not] at hh ⊢
    obtain ⟨g1, g2, h1, h2⟩ := hh
    exact pr 1 3 1 2 (by decide) (by decide) (by decide) (by decide) (by decide) (by decide)
      (fun i hi e1 e2 => by interval_cases i <;> first | exact absurd rfl e1 | exact absurd rfl e2 | exact g1 | exact g2) h1 h2
  · refine imp_true fun hh => ?_
    simp only [List.forall_mem_cons, List.not_mem_nil, false_implies, implies_true, and_true, decide_eq_true_eq, Bool.not_eq_true', decide_eq_false_iff_not] at hh ⊢
    obtain ⟨g1, g2, h1, h2⟩ := hh
    exact pr 1 3 1 3 (by decide) (by decide) (by decide) (by decide) (by decide) (by decide)
      (fun i hi e1 e2 => by interval_cases i <;> first | exact absurd rfl e1 | exact absurd rfl e2 | exact g1 | exact g2) h1 h2
  · refine imp_true fun hh => ?_
    simp only [List.forall_mem_cons, List.not_mem_nil, false_implies, implies_true, and_true, decide_eq_true_eq, Bool.not_eq_true', decide_eq_false_iff_not] at hh ⊢
    obtain ⟨g1, g2, h1, h2⟩ := hh
    exact pr 1 3 2 3 (by decide) (by decide) (by decide) (by decide) (by decide) (by decide)
      (fun i hi e1 e2 => by interval_cases i <;> first | exact absurd rfl e1 | exact absurd rfl e2 | exact g1 | exact g2) h1 h2
  · refine imp_true fun hh => ?_
    simp only [List.forall_mem_cons, List.not_mem_nil, false_implies, implies_true, and_true, decide_eq_true_eq, Bool.not_eq_true', decide_eq_false_iff_not] at hh ⊢
    obtain ⟨g1, g2, h1, h2⟩ := hh
    exact pr 2 3 0 1 (by decide) (by decide) (by decide) (by decide) (by decide) (by decide)
      (fun i hi e1 e2 => by interval_cases i <;> first | exact absurd rfl e1 | exact absurd rfl e2 | exact g1 | exact g2) h1 h2
  · refine imp_true fun hh => ?_
    simp only [List.forall_mem_cons, List.not_mem_nil, false_implies, implies_true, and_true, decide_eq_true_eq, Bool.not_eq_true', decide_eq_false_iff_not] at hh ⊢
    obtain ⟨g1, g2, h1, h2⟩ := hh
    exact pr 2 3 0 2 (by decide) (by decide) (by decide) (by decide) (by decide) (by decide)
      (fun i hi e1 e2 => by interval_cases i <;> first | exact absurd rfl e1 | exact absurd rfl e2 | exact g1 | exact g2) h1 h2
  · refine imp_true fun hh => ?_
    simp only [List.forall_mem_cons, List.not_mem_nil, false_implies, implies_true, and_true, decide_eq_true_eq, Bool.not_eq_true', decide_eq_false_iff_not] at hh ⊢
    obtain ⟨g1, g2, h1, h2⟩ := hh
    exact pr 2 3 0 3 (by decide) (by decide) (by decide) (by decide) (by decide) (by decide)
      (fun i hi e1 e2 => by interval_cases i <;> first | exact absurd rfl e1 | exact absurd rfl e2 | exact g1 | exact g2) h1 h2
  · refine imp_true fun hh => ?_
    simp only [List.forall_mem_cons, List.not_mem_nil, false_implies, implies_true, and_true, decide_eq_true_eq, Bool.not_eq_true', decide_eq_false_iff_not] at hh ⊢
    obtain ⟨g1, g2, h1, h2⟩ := hh
    exact pr 2 3 1 2 (by decide) (by decide) (by decide) (by decide) (by decide) (by decide)
      (fun i hi e1 e2 => by interval_cases i <;> first | exact absurd rfl e1 | exact absurd rfl e2 | exact g1 | exact g2) h1 h2
  · refine imp_true fun hh => ?_
    simp only [List.forall_mem_cons, List.not_mem_nil, false_implies, implies_true, and_true, decide_eq_true_eq, Bool.not_eq_true', decide_eq_false_iff_not] at hh ⊢
    obtain ⟨g1, g2, h1, h2⟩ := hh
    exact pr 2 3 1 3 (by decide) (by decide) (by decide) (by decide) (by decide) (by decide)
      (fun i hi e1 e2 => by interval_cases i <;> first | exact absurd rfl e1 | exact absurd rfl e2 | exact g1 | exact g2) h1 h2
  · refine imp_true fun hh => ?_
    simp only [List.forall_mem_cons, List.not_mem_nil, false_implies, implies_true, and_true, decide_eq_true_eq, Bool.not_eq_true', decide_eq_false_iff_not] at hh ⊢
    obtain ⟨g1, g2, h1, h2⟩ := hh
    exact pr 2 3 2 3 (by decide) (by decide) (by decide) (by decide) (by decide) (by decide)
      (fun i hi e1 e2 => by interval_cases i <;> first | exact absurd rfl e1 | exact absurd rfl e2 | exact g1 | exact g2) h1 h2

end Verif.Proof
