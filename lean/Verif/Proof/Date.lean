import Verif.Model.X509
import Verif.Spec.Date
import Verif.Proof.Simd
import Mathlib.Order.Interval.Finset.Nat
import Mathlib.Tactic.IntervalCases

/-! The date conversion of the certificate parser against the Gregorian calendar. -/

namespace Verif.Proof
open Verif.Model Verif.Spec

/-- The days the code counts, for the year `y`: 365 days per year, the days before the month in a common year, and every fourth year a leap day. -/
def modelSecs (year : Int) (d : Nat) (month day hours minutes seconds : Int) : Int :=
  (year * 365 + (d + day - 1 + (Int.tdiv (year + 1) 4 + if Int.tmod year 4 = 2 ∧ month > 2 then 1 else 0))) * 86400 + hours * 3600 + minutes * 60 + seconds

theorem dateFormula_eq (year month day hours minutes seconds : Int) (d : Nat) (hd : daysInMonth[(month - 1).toNat]? = some d) :
    dateFormula year month day hours minutes seconds = .ok (BitVec.ofInt 64 (modelSecs year d month day hours minutes seconds)) := by
  have hr : rd daysInMonth (month - 1).toNat = .ok d := by rw [rd, hd]
  rw [dateFormula, hr, ok_bind]
  have e1 : BitVec.ofNat 64 d = BitVec.ofInt 64 d := by simp
  have e2 : ∀ x : BitVec 64, x - 1#64 = x + BitVec.ofInt 64 (-1) := by intro x; rw [BitVec.sub_eq_add_neg]; rfl
  have e3 : (86400#64 : BitVec 64) = BitVec.ofInt 64 86400 := by decide
  rw [e1, e2, e3]
  simp only [← BitVec.ofInt_add, ← BitVec.ofInt_mul, modelSecs, Int.sub_eq_add_neg]
  congr 1
  show BitVec.ofInt 64 _ = BitVec.ofInt 64 _
  split <;> simp only [Int.add_zero]

theorem dig (x : Nat) (h : x < 10) : (BitVec.ofNat 8 (48 + x)).toNat = 48 + x := by
  rw [BitVec.toNat_ofNat]; exact Nat.mod_eq_of_lt (by omega)

theorem decimal2 (n : Nat) : decimal 2 n = [BitVec.ofNat 8 (48 + n / 10 % 10), BitVec.ofNat 8 (48 + n % 10)] := rfl

theorem decimal4 (n : Nat) : decimal 4 n = [BitVec.ofNat 8 (48 + n / 10 / 10 / 10 % 10), BitVec.ofNat 8 (48 + n / 10 / 10 % 10),
    BitVec.ofNat 8 (48 + n / 10 % 10), BitVec.ofNat 8 (48 + n % 10)] := rfl

theorem twoDigits_spec (b : List Byte) (i n : Nat) (h1 : b[i]? = some (BitVec.ofNat 8 (48 + n / 10 % 10))) (h2 : b[i + 1]? = some (BitVec.ofNat 8 (48 + n % 10)))
    (hn : n < 100) : twoDigits b i = .ok (n : Int) := by
  have r1 : rd b i = .ok (BitVec.ofNat 8 (48 + n / 10 % 10)) := by rw [rd, h1]
  have r2 : rd b (i + 1) = .ok (BitVec.ofNat 8 (48 + n % 10)) := by rw [rd, h2]
  rw [twoDigits, r1, ok_bind, r2, ok_bind, dig _ (by omega), dig _ (by omega)]
  show Except.ok _ = Except.ok _
  congr 1
  omega

/-- The fourteen digits of a date and time. -/
def digits14 (d : DateTime) : List Byte :=
  decimal 4 d.year ++ (decimal 2 d.month ++ decimal 2 d.day ++ decimal 2 d.hour ++ decimal 2 d.minute ++ decimal 2 d.second)

theorem valid_day_lt {d : DateTime} (h : d.Valid) : d.day ≤ 31 := by
  have := h.day2
  have : monthLength d.year d.month ≤ 31 := by
    unfold monthLength; split <;> (try split) <;> omega
  omega

theorem decimal_digits (k n : Nat) : ∀ c ∈ decimal k n, 48 ≤ c.toNat ∧ c.toNat ≤ 57 := by
  induction k generalizing n with
  | zero => intro c hc; simp [decimal] at hc
  | succ k ih =>
    intro c hc
    rw [decimal, List.mem_append] at hc
    rcases hc with hc | hc
    · exact ih _ c hc
    · rw [List.mem_singleton] at hc
      rw [hc, dig _ (by omega)]; omega

theorem dateOf_spec (d : DateTime) (h : d.Valid) : ∃ k, daysInMonth[d.month - 1]? = some k ∧ dateOf (digits14 d) =
    .ok (BitVec.ofInt 64 (modelSecs ((d.year : Int) - 1970) k d.month d.day d.hour d.minute d.second)) := by
  have h1 := h.year
  have h2 := h.month1
  have h3 := h.month2
  have h4 := valid_day_lt h
  have h5 := h.hour
  have h6 := h.minute
  have h7 := h.second
  have hk : d.month - 1 < daysInMonth.length := by simp [daysInMonth]; omega
  refine ⟨daysInMonth[d.month - 1], List.getElem?_eq_getElem hk, ?_⟩
  have hany : (digits14 d).any (fun c => decide (c.toNat < 48 ∨ 57 < c.toNat)) = false := by
    rw [List.any_eq_false]
    intro c hc
    simp only [digits14, List.mem_append] at hc
    have : 48 ≤ c.toNat ∧ c.toNat ≤ 57 := by
      rcases hc with hc | (((hc | hc) | hc) | hc) | hc <;> exact decimal_digits _ _ c hc
    simp; omega
  rw [dateOf, if_neg (by rw [hany]; decide)]
  have y0 : rd (digits14 d) 0 = .ok (BitVec.ofNat 8 (48 + d.year / 10 / 10 / 10 % 10)) := rfl
  have y1 : rd (digits14 d) 1 = .ok (BitVec.ofNat 8 (48 + d.year / 10 / 10 % 10)) := rfl
  have y2 : rd (digits14 d) 2 = .ok (BitVec.ofNat 8 (48 + d.year / 10 % 10)) := rfl
  have y3 : rd (digits14 d) 3 = .ok (BitVec.ofNat 8 (48 + d.year % 10)) := rfl
  have m : twoDigits (digits14 d) 4 = .ok (d.month : Int) := twoDigits_spec _ _ _ rfl rfl (by omega)
  have dd : twoDigits (digits14 d) 6 = .ok (d.day : Int) := twoDigits_spec _ _ _ rfl rfl (by omega)
  have hh : twoDigits (digits14 d) 8 = .ok (d.hour : Int) := twoDigits_spec _ _ _ rfl rfl (by omega)
  have mm : twoDigits (digits14 d) 10 = .ok (d.minute : Int) := twoDigits_spec _ _ _ rfl rfl (by omega)
  have ss : twoDigits (digits14 d) 12 = .ok (d.second : Int) := twoDigits_spec _ _ _ rfl rfl (by omega)
  have l12 : decide (12 ≤ (digits14 d).length) = true := rfl
  have l14 : decide (14 ≤ (digits14 d).length) = true := rfl
  rw [y0, ok_bind, y1, ok_bind, y2, ok_bind, y3, ok_bind, m, ok_bind, if_neg (by omega), dd, ok_bind, hh, ok_bind, l12, cond_true, mm, ok_bind,
    l14, cond_true, ss, ok_bind, dig _ (by omega), dig _ (by omega), dig _ (by omega), dig _ (by omega)]
  rw [dateFormula_eq _ _ _ _ _ _ daysInMonth[d.month - 1]]
  · congr 3
    omega
  · rw [show ((d.month : Int) - 1).toNat = d.month - 1 by omega]
    exact List.getElem?_eq_getElem hk

theorem timeTail_eq (d : DateTime) : timeTail d =
    (decimal 2 d.month ++ decimal 2 d.day ++ decimal 2 d.hour ++ decimal 2 d.minute ++ decimal 2 d.second) ++ [0x5a#8] := by
  rw [timeTail]; rfl

theorem generalized_parse (d : DateTime) : dateOfElement 24#8 (generalizedTime d) = dateOf (digits14 d) := by
  rw [generalizedTime, timeTail_eq, ← List.append_assoc]
  change dateOfElement 24#8 (digits14 d ++ [0x5a#8]) = _
  have hd : (digits14 d ++ [0x5a#8]).dropLast = digits14 d := List.dropLast_concat
  rw [dateOfElement.eq_def]
  split
  · rename_i h; simp at h
  · rw [if_neg (by simp), if_neg (by decide), if_pos rfl, hd]

theorem utc_parse (d : DateTime) (h1 : 1950 ≤ d.year) (h2 : d.year ≤ 2049) : dateOfElement 23#8 (utcTime d) = dateOf (digits14 d) := by
  have key : (if 0x35#8 ≤ BitVec.ofNat 8 (48 + d.year % 100 / 10 % 10) then [0x31#8, 0x39#8] else [0x32#8, 0x30#8]) ++ decimal 2 (d.year % 100) = decimal 4 d.year := by
    rw [decimal2, decimal4]
    have e3 : d.year % 100 / 10 % 10 = d.year / 10 % 10 := by omega
    have e4 : d.year % 100 % 10 = d.year % 10 := by omega
    rw [e3, e4]
    by_cases h : d.year < 2000
    · have a : d.year / 10 / 10 / 10 % 10 = 1 := by omega
      have b : d.year / 10 / 10 % 10 = 9 := by omega
      rw [a, b, if_pos (by rw [BitVec.le_def, dig _ (by omega)]; show 53 ≤ _; omega)]; rfl
    · have a : d.year / 10 / 10 / 10 % 10 = 2 := by omega
      have b : d.year / 10 / 10 % 10 = 0 := by omega
      rw [a, b, if_neg (by rw [BitVec.le_def, dig _ (by omega)]; show ¬ 53 ≤ _; omega)]; rfl
  rw [utcTime, timeTail_eq, ← List.append_assoc, decimal2 (d.year % 100)]
  rw [dateOfElement.eq_def]
  split
  · rename_i h; simp at h
  · rename_i first t h
    have hf : first = BitVec.ofNat 8 (48 + d.year % 100 / 10 % 10) := by
      simp only [List.cons_append] at h
      exact (List.cons.inj h).1.symm
    rw [if_neg (by rw [List.getLastD_concat]; exact fun h => h rfl), if_pos rfl, hf, ← decimal2, ← List.append_assoc, ← List.append_assoc, List.dropLast_concat, key, digits14]

theorem daysBeforeYear_eq (y : Nat) : daysBeforeYear y + (y + 99) / 100 = 365 * y + (y + 3) / 4 + (y + 399) / 400 := by
  induction y with
  | zero => rfl
  | succ y ih =>
    rw [daysBeforeYear]
    by_cases h : isLeap y
    · rw [if_pos h]
      simp only [isLeap, Bool.or_eq_true, Bool.and_eq_true, Bool.not_eq_true', decide_eq_true_eq, decide_eq_false_iff_not] at h
      omega
    · rw [if_neg h]
      simp only [isLeap, Bool.or_eq_true, Bool.and_eq_true, Bool.not_eq_true', decide_eq_true_eq, decide_eq_false_iff_not] at h
      omega

theorem daysBeforeMonth_eq (y m : Nat) (h1 : 1 ≤ m) (h2 : m ≤ 12) :
    ∃ k, daysInMonth[m - 1]? = some k ∧ daysBeforeMonth y m = k + if isLeap y ∧ 2 < m then 1 else 0 := by
  interval_cases m <;> refine ⟨_, rfl, ?_⟩ <;> cases h : isLeap y <;>
    simp [daysBeforeMonth, List.range_succ, monthLength, h]

/-- Years divisible by 100 but not by 400 whose 29 February the code counts although it does not exist. -/
def phantoms (d : DateTime) : Nat :=
  ((List.range (d.year + 1)).filter (fun c => decide (1970 ≤ c ∧ c % 100 = 0 ∧ c % 400 ≠ 0 ∧ (c < d.year ∨ 2 < d.month)))).length

theorem phantoms_before (y : Nat) (hy : 1970 ≤ y) : (((List.range y).filter (fun c => decide (1970 ≤ c ∧ c % 100 = 0 ∧ c % 400 ≠ 0))).length) + (y + 399) / 400 + 15 = (y + 99) / 100 := by
  induction y, hy using Nat.le_induction with
  | base => decide +kernel
  | succ y hy ih =>
    rw [List.range_succ, List.filter_append, List.length_append]
    by_cases h : y % 100 = 0 ∧ y % 400 ≠ 0
    · rw [show [y].filter (fun c => decide (1970 ≤ c ∧ c % 100 = 0 ∧ c % 400 ≠ 0)) = [y] by simp [hy, h], List.length_singleton]
      omega
    · rw [show [y].filter (fun c => decide (1970 ≤ c ∧ c % 100 = 0 ∧ c % 400 ≠ 0)) = [] by
        rw [List.filter_cons_of_neg (by simp; tauto)]; rfl, List.length_nil]
      omega

theorem phantoms_eq (d : DateTime) (hy : 1970 ≤ d.year) :
    phantoms d + (d.year + 399) / 400 + 15 = (d.year + 99) / 100 + if d.year % 100 = 0 ∧ d.year % 400 ≠ 0 ∧ 2 < d.month then 1 else 0 := by
  have hb := phantoms_before d.year hy
  rw [phantoms, List.range_succ, List.filter_append, List.length_append]
  have e : (List.range d.year).filter (fun c => decide (1970 ≤ c ∧ c % 100 = 0 ∧ c % 400 ≠ 0 ∧ (c < d.year ∨ 2 < d.month))) =
      (List.range d.year).filter (fun c => decide (1970 ≤ c ∧ c % 100 = 0 ∧ c % 400 ≠ 0)) := by
    apply List.filter_congr
    intro c hc
    have := List.mem_range.mp hc
    simp [this]
  rw [e]
  by_cases h : d.year % 100 = 0 ∧ d.year % 400 ≠ 0 ∧ 2 < d.month
  · rw [if_pos h, List.filter_cons_of_pos (by simp [hy, h]), List.filter_nil, List.length_singleton]; omega
  · rw [if_neg h, List.filter_cons_of_neg (by simp; omega), List.filter_nil, List.length_nil]; omega

/-- From 1970 on the code is ahead of the calendar by the leap days that do not exist. -/
theorem modelSecs_after (d : DateTime) (h : d.Valid) (hy : 1970 ≤ d.year) (k : Nat) (hk : daysInMonth[d.month - 1]? = some k) :
    modelSecs ((d.year : Int) - 1970) k d.month d.day d.hour d.minute d.second = unixTime d + 86400 * (phantoms d : Int) := by
  obtain ⟨k', hk', hm⟩ := daysBeforeMonth_eq d.year d.month h.month1 h.month2
  rw [hk] at hk'
  injection hk' with hk'
  subst hk'
  have h1 := daysBeforeYear_eq d.year
  have h2 := daysBeforeYear_eq 1970
  have h3 := phantoms_eq d hy
  rw [unixTime, modelSecs, hm]
  have ht : Int.tdiv ((d.year : Int) - 1970 + 1) 4 = (((d.year - 1969) / 4 : Nat) : Int) := by
    rw [show (d.year : Int) - 1970 + 1 = ((d.year - 1969 : Nat) : Int) by omega]; rfl
  have hmod : (Int.tmod ((d.year : Int) - 1970) 4 = 2) = ((d.year - 1970) % 4 = 2) := by
    rw [show (d.year : Int) - 1970 = ((d.year - 1970 : Nat) : Int) by omega]
    apply propext
    show (((d.year - 1970) % 4 : Nat) : Int) = 2 ↔ _
    omega
  rw [ht]
  simp only [hmod]
  have hl : (isLeap d.year = true) = ((d.year % 4 = 0 ∧ d.year % 100 ≠ 0) ∨ d.year % 400 = 0) := by
    simp [isLeap]
  simp only [hl]
  have hmo : ((d.month : Int) > 2) = (2 < d.month) := by apply propext; omega
  simp only [hmo]
  by_cases c1 : 2 < d.month
  · simp only [c1, and_true] at h3 ⊢
    split_ifs at h3 ⊢ <;> push_cast <;> omega
  · simp only [c1, and_false, if_false] at h3 ⊢
    push_cast; omega

end Verif.Proof
