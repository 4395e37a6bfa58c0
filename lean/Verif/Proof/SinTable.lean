import Verif.Model.Md5
import Verif.Spec.Md5
import Mathlib.Analysis.Complex.Exponential

/-! The MD5 constants are `⌊2^32 |sin i|⌋`: certified evaluation of the sine at 1..64. -/

namespace Verif.Proof
open Complex

/-- Gaussian integer close to `2^80 exp(i)`, rounded towards zero. -/
def gRe : Int := 653185407961314874212934
def gIm : Int := 1017275999990815458903785

/-- Powers of the Gaussian integer. -/
def gPow : Nat → Int × Int
  | 0 => (1, 0)
  | n + 1 => let (a, b) := gPow n; (a * gRe - b * gIm, a * gIm + b * gRe)

/-- The same number scaled down, as a complex number. -/
noncomputable def gz : ℂ := ⟨(gRe : ℝ) / 2 ^ 80, (gIm : ℝ) / 2 ^ 80⟩

theorem gz_pow (n : Nat) : gz ^ n = ⟨((gPow n).1 : ℝ) / (2 ^ 80) ^ n, ((gPow n).2 : ℝ) / (2 ^ 80) ^ n⟩ := by
  induction n with
  | zero => apply Complex.ext <;> simp [gPow]
  | succ n ih =>
    have h : (2:ℝ) ^ 80 ≠ 0 := by positivity
    rw [pow_succ, ih, gz]
    apply Complex.ext
    · simp only [mul_re, gPow]
      push_cast
      field_simp
      ring
    · simp only [mul_im, gPow]
      push_cast
      field_simp
      ring

theorem norm_gz_le : ‖gz‖ ≤ 1 := by
  rw [← sq_le_one_iff₀ (norm_nonneg _), ← Complex.normSq_eq_norm_sq, gz, Complex.normSq_mk]
  norm_num [gRe, gIm]

theorem I_pow_sum : (∑ m ∈ Finset.range 30, I ^ m / (m.factorial : ℂ)) =
    ⟨∑ m ∈ Finset.range 15, (-1 : ℝ) ^ m / ((2 * m).factorial : ℝ), ∑ m ∈ Finset.range 15, (-1 : ℝ) ^ m / ((2 * m + 1).factorial : ℝ)⟩ := by
  have : ∀ n, (∑ m ∈ Finset.range (2 * n), I ^ m / (m.factorial : ℂ)) =
      ⟨∑ m ∈ Finset.range n, (-1 : ℝ) ^ m / ((2 * m).factorial : ℝ), ∑ m ∈ Finset.range n, (-1 : ℝ) ^ m / ((2 * m + 1).factorial : ℝ)⟩ := by
    intro n
    induction n with
    | zero => apply Complex.ext <;> simp
    | succ n ih =>
      rw [show 2 * (n + 1) = 2 * n + 1 + 1 by ring, Finset.sum_range_succ, Finset.sum_range_succ, ih,
        Finset.sum_range_succ, Finset.sum_range_succ, pow_succ, pow_mul, I_sq]
      have e1 : ((-1 : ℂ)) ^ n / ((2 * n).factorial : ℂ) = ((((-1 : ℝ) ^ n / ((2 * n).factorial : ℝ)) : ℝ) : ℂ) := by push_cast; rfl
      have e2 : ((-1 : ℂ)) ^ n * I / ((2 * n + 1).factorial : ℂ) = ((((-1 : ℝ) ^ n / ((2 * n + 1).factorial : ℝ)) : ℝ) : ℂ) * I := by
        push_cast; ring
      rw [e1, e2]
      generalize (-1 : ℝ) ^ n / ((2 * n).factorial : ℝ) = r1
      generalize (-1 : ℝ) ^ n / ((2 * n + 1).factorial : ℝ) = r2
      apply Complex.ext <;> simp
  exact this 15

theorem exp_I_close : ‖exp I - gz‖ ≤ 1 / 2 ^ 78 := by
  have h1 : ‖exp I - ∑ m ∈ Finset.range 30, I ^ m / (m.factorial : ℂ)‖ ≤ 1 / 2 ^ 100 := by
    refine (Complex.exp_bound (x := I) (by simp) (n := 30) (by norm_num)).trans ?_
    rw [norm_I, one_pow, one_mul]
    norm_num [Nat.factorial]
  have h2 : ‖(∑ m ∈ Finset.range 30, I ^ m / (m.factorial : ℂ)) - gz‖ ≤ 2 / 2 ^ 80 := by
    rw [I_pow_sum]
    refine (Complex.norm_le_abs_re_add_abs_im _).trans ?_
    simp only [sub_re, sub_im, gz]
    have ha : |∑ m ∈ Finset.range 15, (-1 : ℝ) ^ m / ((2 * m).factorial : ℝ) - (gRe : ℝ) / 2 ^ 80| ≤ 1 / 2 ^ 80 := by
      norm_num [Finset.sum_range_succ, Nat.factorial, gRe, abs_le]
    have hb : |∑ m ∈ Finset.range 15, (-1 : ℝ) ^ m / ((2 * m + 1).factorial : ℝ) - (gIm : ℝ) / 2 ^ 80| ≤ 1 / 2 ^ 80 := by
      norm_num [Finset.sum_range_succ, Nat.factorial, gIm, abs_le]
    calc _ ≤ (1 : ℝ) / 2 ^ 80 + 1 / 2 ^ 80 := add_le_add ha hb
      _ = 2 / 2 ^ 80 := by ring
  calc ‖exp I - gz‖ = ‖(exp I - ∑ m ∈ Finset.range 30, I ^ m / (m.factorial : ℂ)) + ((∑ m ∈ Finset.range 30, I ^ m / (m.factorial : ℂ)) - gz)‖ := by ring_nf
    _ ≤ _ := norm_add_le _ _
    _ ≤ 1 / 2 ^ 100 + 2 / 2 ^ 80 := add_le_add h1 h2
    _ ≤ 1 / 2 ^ 78 := by norm_num

theorem pow_close (a b : ℂ) (ha : ‖a‖ ≤ 1) (hb : ‖b‖ ≤ 1) (n : Nat) : ‖a ^ n - b ^ n‖ ≤ n * ‖a - b‖ := by
  induction n with
  | zero => simp
  | succ n ih =>
    have : a ^ (n + 1) - b ^ (n + 1) = a ^ n * (a - b) + (a ^ n - b ^ n) * b := by ring
    rw [this]
    refine (norm_add_le _ _).trans ?_
    rw [norm_mul, norm_mul, norm_pow]
    have h1 : ‖a‖ ^ n * ‖a - b‖ ≤ 1 * ‖a - b‖ := mul_le_mul_of_nonneg_right (pow_le_one₀ (norm_nonneg _) ha) (norm_nonneg _)
    have h2 : ‖a ^ n - b ^ n‖ * ‖b‖ ≤ ‖a ^ n - b ^ n‖ * 1 := mul_le_mul_of_nonneg_left hb (norm_nonneg _)
    push_cast
    linarith

theorem sin_close {n : Nat} (hn : n ≤ 64) : |Real.sin n - ((gPow n).2 : ℝ) / (2 ^ 80) ^ n| ≤ 1 / 2 ^ 72 := by
  have h := pow_close (exp I) gz (by rw [Complex.norm_exp]; simp) norm_gz_le n
  have h1 : (exp I) ^ n - gz ^ n = exp (n * I) - gz ^ n := by rw [← Complex.exp_nat_mul]
  have h2 : (exp I ^ n - gz ^ n).im = Real.sin n - ((gPow n).2 : ℝ) / (2 ^ 80) ^ n := by
    rw [h1, gz_pow, sub_im]
    have := Complex.exp_ofReal_mul_I_im (n : ℝ)
    rw [Complex.ofReal_natCast] at this
    rw [this]
  rw [← h2]
  refine (Complex.abs_im_le_norm _).trans (h.trans ?_)
  have hn' : (n : ℝ) ≤ 64 := by exact_mod_cast hn
  calc (n : ℝ) * ‖exp I - gz‖ ≤ 64 * (1 / 2 ^ 78) := mul_le_mul hn' exp_I_close (norm_nonneg _) (by norm_num)
    _ = 1 / 2 ^ 72 := by norm_num

/-- Integer inequalities that pin the constant down. -/
def sinCheck (i : Nat) : Bool :=
  let k := (Model.md5K.getD i 0#32).toNat
  let s := (gPow (i + 1)).2.natAbs
  let P := (2 ^ 80) ^ (i + 1)
  (k * 2 ^ 40 + 1) * P ≤ 2 ^ 72 * s && 2 ^ 72 * s + P < (k + 1) * 2 ^ 40 * P

theorem sinCheck_all : (List.range 64).all sinCheck = true := by decide +kernel

theorem md5T_eq {i : Nat} (hi : i < 64) : Spec.md5T (i + 1) = Model.md5K.getD i 0#32 := by
  have hc := List.all_eq_true.mp sinCheck_all i (List.mem_range.mpr hi)
  simp only [sinCheck, Bool.and_eq_true, decide_eq_true_eq] at hc
  obtain ⟨hlo, hhi⟩ := hc
  have hs := sin_close (n := i + 1) (by omega)
  set k := (Model.md5K.getD i 0#32).toNat with hk
  set P : Nat := (2 ^ 80) ^ (i + 1) with hP
  have hP0 : (0 : ℝ) < (P : ℝ) := by rw [hP]; positivity
  have hPr : ((2 : ℝ) ^ 80) ^ (i + 1) = (P : ℝ) := by rw [hP]; push_cast; norm_num
  rw [hPr] at hs
  set x : ℝ := |Real.sin ((i + 1 : ℕ) : ℝ)| with hx
  have habs : |x - ((gPow (i + 1)).2.natAbs : ℝ) / P| ≤ 1 / 2 ^ 72 := by
    have e : ((gPow (i + 1)).2.natAbs : ℝ) / P = |((gPow (i + 1)).2 : ℝ) / P| := by
      rw [abs_div, abs_of_pos hP0, Nat.cast_natAbs, Int.cast_abs]
    rw [e, hx]
    exact (abs_abs_sub_abs_le_abs_sub _ _).trans hs
  rw [abs_le] at habs
  have hlo' : ((k : ℝ) * 2 ^ 40 + 1) * P ≤ 2 ^ 72 * ((gPow (i + 1)).2.natAbs : ℝ) := by exact_mod_cast hlo
  have hhi' : 2 ^ 72 * ((gPow (i + 1)).2.natAbs : ℝ) + P < ((k : ℝ) + 1) * 2 ^ 40 * P := by exact_mod_cast hhi
  set q : ℝ := ((gPow (i + 1)).2.natAbs : ℝ) / P with hq
  have hqP : ((gPow (i + 1)).2.natAbs : ℝ) = q * P := by rw [hq]; field_simp
  rw [hqP] at hlo' hhi'
  have l1 : (k : ℝ) * 2 ^ 40 + 1 ≤ 2 ^ 72 * q := by
    have : ((k : ℝ) * 2 ^ 40 + 1) * P ≤ (2 ^ 72 * q) * P := by linarith
    exact le_of_mul_le_mul_right this hP0
  have l2 : 2 ^ 72 * q + 1 < ((k : ℝ) + 1) * 2 ^ 40 := by
    have : (2 ^ 72 * q + 1) * P < (((k : ℝ) + 1) * 2 ^ 40) * P := by linarith
    exact lt_of_mul_lt_mul_right this hP0.le
  have hfl : ⌊4294967296 * x⌋₊ = k := by
    rw [Nat.floor_eq_iff (by positivity)]
    constructor <;> norm_num at * <;> linarith
  unfold Spec.md5T
  rw [← hx, hfl, hk, BitVec.ofNat_toNat, BitVec.setWidth_eq]

end Verif.Proof
