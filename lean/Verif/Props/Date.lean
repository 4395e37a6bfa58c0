import Verif.Proof.Date
import Verif.Proof.Asn1

/-! Property C71: `parseDer<x509date>` in src/X509Certificate.cpp. -/

namespace Verif.Props
open Verif.Model Verif.Proof Verif.Spec

/-- The date parsed from a DER element that is followed by other bytes. -/
def parsedDate (tag : Byte) (content post : List Byte) : Out U64 := (parseDate (viewOf (spanOf (tlv tag content ++ post)))).map (·.1)

theorem parsedDate_eq (tag : Byte) (content post : List Byte) (h : content.length < 2 ^ 64) : parsedDate tag content post = dateOfElement tag content := by
  have ha : At (viewOf (spanOf (tlv tag content ++ post))) (tlv tag content ++ post) [] := at_whole _
  obtain ⟨v, e, _⟩ := read_tlv ha h
  rw [parsedDate, parseDate, e, ok_bind, span_bytes]
  cases dateOfElement tag content <;> rfl

/-- C71, full claim. -/
def C71_claim : Prop := ∀ d : DateTime, d.Valid → ∀ post,
  (∃ t, parsedDate 24#8 (generalizedTime d) post = .ok t ∧ (t.toNat : Int) = unixTime d) ∧
  (1950 ≤ d.year → d.year ≤ 2049 → ∃ t, parsedDate 23#8 (utcTime d) post = .ok t ∧ (t.toNat : Int) = unixTime d)

/-- Before 1 March 2100. -/
def Before2100 (d : DateTime) : Prop := d.year < 2100 ∨ d.year = 2100 ∧ d.month ≤ 2

theorem phantoms_zero (d : DateTime) (hy : 1970 ≤ d.year) : phantoms d = 0 ↔ Before2100 d := by
  have := phantoms_eq d hy
  rw [Before2100]
  split_ifs at this <;> omega

theorem generalized_length (d : DateTime) : (generalizedTime d).length < 2 ^ 64 := by
  rw [generalizedTime, timeTail_eq]; simp [decimal4, decimal2]

theorem utc_length (d : DateTime) : (utcTime d).length < 2 ^ 64 := by
  rw [utcTime, timeTail_eq]; simp [decimal2]

theorem ofInt_toNat (x : Int) (h0 : 0 ≤ x) (h1 : x < 2 ^ 64) : ((BitVec.ofInt 64 x).toNat : Int) = x := by
  rw [BitVec.toNat_ofInt]
  norm_num at h1 ⊢
  omega

theorem daysBeforeMonth_le (y m : Nat) (h1 : 1 ≤ m) (h2 : m ≤ 12) : daysBeforeMonth y m ≤ 335 := by
  obtain ⟨k, hk, e⟩ := daysBeforeMonth_eq y m h1 h2
  have : k ≤ 334 := by
    revert hk; interval_cases m <;> simp only [daysInMonth, Nat.add_one_sub_one, Nat.reduceSub, List.getElem?_cons_zero, List.getElem?_cons_succ, Option.some.injEq] <;> omega
  rw [e]; split <;> omega

theorem daysBeforeYear_mono {a b : Nat} (h : a ≤ b) : daysBeforeYear a ≤ daysBeforeYear b := by
  induction h with
  | refl => exact Nat.le_refl _
  | step _ ih => exact Nat.le_trans ih (by rw [Nat.succ_eq_add_one, daysBeforeYear]; omega)

/-- The result for both formats, from 1970 on. -/
theorem after_1970 (d : DateTime) (h : d.Valid) (hy : 1970 ≤ d.year) : ∃ t, dateOf (digits14 d) = .ok t ∧ (t.toNat : Int) = unixTime d + 86400 * (phantoms d : Int) := by
  obtain ⟨k, hk, e⟩ := dateOf_spec d h
  rw [modelSecs_after d h hy k hk] at e
  refine ⟨_, e, ofInt_toNat _ ?_ ?_⟩
  · rw [unixTime]
    have := daysBeforeYear_mono hy
    have := h.day1
    omega
  · rw [unixTime]
    have h1 := daysBeforeYear_eq d.year
    have h2 := daysBeforeYear_eq 1970
    have h3 := phantoms_eq d hy
    have := h.year
    have := valid_day_lt h
    have := daysBeforeMonth_le d.year d.month h.month1 h.month2
    have := h.hour
    have := h.minute
    have := h.second
    split_ifs at h3 <;> omega

/-- C71 from 1970-01-01 up to 2100-02-28, for both formats. -/
theorem C71_partial (d : DateTime) (h : d.Valid) (h1 : 1970 ≤ d.year) (h2 : Before2100 d) (post : List Byte) :
    (∃ t, parsedDate 24#8 (generalizedTime d) post = .ok t ∧ (t.toNat : Int) = unixTime d) ∧
    (d.year ≤ 2049 → ∃ t, parsedDate 23#8 (utcTime d) post = .ok t ∧ (t.toNat : Int) = unixTime d) := by
  obtain ⟨t, e, ht⟩ := after_1970 d h h1
  rw [(phantoms_zero d h1).mpr h2] at ht
  refine ⟨⟨t, ?_, by simpa using ht⟩, fun h3 => ⟨t, ?_, by simpa using ht⟩⟩
  · rw [parsedDate_eq _ _ _ (generalized_length d), generalized_parse, e]
  · rw [parsedDate_eq _ _ _ (utc_length d), utc_parse d (by omega) h3, e]

/-- A case that meets the hypotheses of `C71_partial`. -/
example := C71_partial ⟨2024, 2, 29, 12, 30, 59⟩ ⟨by decide, by decide, by decide, by decide, by decide, by decide, by decide, by decide⟩ (by decide) (.inl (by decide)) [1#8]

/-- Later dates: the result is one day late for every year from 2100 on that is divisible by 100 but not by 400 and whose February is over. -/
theorem C71_late_partial (d : DateTime) (h : d.Valid) (h1 : 1970 ≤ d.year) (post : List Byte) :
    ∃ t, parsedDate 24#8 (generalizedTime d) post = .ok t ∧ (t.toNat : Int) = unixTime d + 86400 *
      (((List.range (d.year + 1)).filter (fun c => decide (1970 ≤ c ∧ c % 100 = 0 ∧ c % 400 ≠ 0 ∧ (c < d.year ∨ 2 < d.month)))).length : Int) := by
  obtain ⟨t, e, ht⟩ := after_1970 d h h1
  exact ⟨t, by rw [parsedDate_eq _ _ _ (generalized_length d), generalized_parse, e], ht⟩

theorem before_1970 (d : DateTime) (h : d.Valid) (hy : d.year < 1970) : ∃ t, dateOf (digits14 d) = .ok t ∧ 2 ^ 63 ≤ t.toNat := by
  obtain ⟨k, hk, e⟩ := dateOf_spec d h
  refine ⟨_, e, ?_⟩
  have hkk : k + d.day ≤ 365 := by
    have h1 := h.month1
    have h2 := h.month2
    have h3 := h.day2
    revert hk h3
    generalize d.month = m at *
    interval_cases m <;> simp only [daysInMonth, monthLength, Nat.add_one_sub_one, Nat.reduceSub, List.getElem?_cons_zero, List.getElem?_cons_succ, Option.some.injEq] <;>
      (try split) <;> omega
  have hneg : modelSecs ((d.year : Int) - 1970) k d.month d.day d.hour d.minute d.second < 0 ∧
      -(2 ^ 63) ≤ modelSecs ((d.year : Int) - 1970) k d.month d.day d.hour d.minute d.second := by
    rw [modelSecs]
    have ht : Int.tdiv ((d.year : Int) - 1970 + 1) 4 = -(((1969 - d.year) / 4 : Nat) : Int) := by
      rw [show (d.year : Int) - 1970 + 1 = -((1969 - d.year : Nat) : Int) by omega, Int.neg_tdiv]; rfl
    have hmod : ¬ Int.tmod ((d.year : Int) - 1970) 4 = 2 := by
      rw [show (d.year : Int) - 1970 = -((1970 - d.year : Nat) : Int) by omega, Int.neg_tmod]
      show ¬ -(((1970 - d.year) % 4 : Nat) : Int) = 2
      omega
    rw [ht, if_neg (fun c => hmod c.1)]
    have := h.day1
    have := h.hour
    have := h.minute
    have := h.second
    norm_num
    constructor <;> omega
  generalize modelSecs ((d.year : Int) - 1970) k d.month d.day d.hour d.minute d.second = x at hneg
  rw [BitVec.toNat_ofInt]
  norm_num at hneg ⊢
  omega

/-- Earlier dates: the result is a number beyond `2^63`, so as an end of validity it lies in the far future. -/
theorem C71_early_partial (d : DateTime) (h : d.Valid) (h1 : d.year < 1970) (post : List Byte) :
    (∃ t, parsedDate 24#8 (generalizedTime d) post = .ok t ∧ 2 ^ 63 ≤ t.toNat) ∧
    (1950 ≤ d.year → ∃ t, parsedDate 23#8 (utcTime d) post = .ok t ∧ 2 ^ 63 ≤ t.toNat) := by
  obtain ⟨t, e, ht⟩ := before_1970 d h h1
  refine ⟨⟨t, ?_, ht⟩, fun h3 => ⟨t, ?_, ht⟩⟩
  · rw [parsedDate_eq _ _ _ (generalized_length d), generalized_parse, e]
  · rw [parsedDate_eq _ _ _ (utc_length d), utc_parse d h3 (by omega), e]

/-- C71: the dates for which the conversion is right are exactly those of `C71_partial`. -/
theorem C71_exact (d : DateTime) (h : d.Valid) (post : List Byte) :
    (∃ t, parsedDate 24#8 (generalizedTime d) post = .ok t ∧ (t.toNat : Int) = unixTime d) ↔ 1970 ≤ d.year ∧ Before2100 d := by
  constructor
  · rintro ⟨t, e, ht⟩
    by_cases hy : 1970 ≤ d.year
    · obtain ⟨t', e', ht'⟩ := after_1970 d h hy
      rw [parsedDate_eq _ _ _ (generalized_length d), generalized_parse, e'] at e
      injection e with e
      subst e
      exact ⟨hy, (phantoms_zero d hy).mp (by omega)⟩
    · have : unixTime d < 0 := by
        rw [unixTime]
        have h1 := daysBeforeYear_eq d.year
        have h2 := daysBeforeYear_eq 1970
        have h3 : daysBeforeYear (d.year + 1) ≤ daysBeforeYear 1970 := by
          have := daysBeforeYear_eq (d.year + 1); omega
        have h4 : daysBeforeMonth d.year d.month + d.day ≤ if isLeap d.year then 366 else 365 := by
          have h1 := h.month1
          have h2 := h.month2
          have h3 := h.day2
          generalize d.month = m at *
          interval_cases m <;> cases hl : isLeap d.year <;> simp [daysBeforeMonth, List.range_succ, monthLength, hl] at h3 ⊢ <;> omega
        rw [daysBeforeYear] at h3
        have := h.hour
        have := h.minute
        have := h.second
        omega
      omega
  · rintro ⟨h1, h2⟩
    exact (C71_partial d h h1 h2 post).1

example : DateTime.Valid ⟨2024, 2, 29, 23, 59, 59⟩ := ⟨by decide, by decide, by decide, by decide, by decide, by decide, by decide, by decide⟩
example : Before2100 ⟨2024, 2, 29, 23, 59, 59⟩ := Or.inl (by decide)
example : utcTime ⟨2015, 6, 4, 11, 4, 38⟩ = ascii "150604110438Z" := by decide +kernel
example : generalizedTime ⟨2015, 6, 4, 11, 4, 38⟩ = ascii "20150604110438Z" := by decide +kernel
example : (parsedDate 23#8 (ascii "150604110438Z") []).map (·.toNat) = .ok 1433415878 := by decide +kernel

/-- C71 fails: 2100-03-01 is taken for the day after. -/
theorem C71_false_2100 : ¬ C71_claim := by
  intro h
  have hv : DateTime.Valid ⟨2100, 3, 1, 0, 0, 0⟩ := ⟨by decide, by decide, by decide, by decide, by decide, by decide, by decide, by decide⟩
  have := (C71_exact _ hv []).mp (h _ hv []).1
  exact absurd this.2 (by rw [Before2100]; decide)

/-- C71 fails: the UTCTime of 1969-12-31 23:59:59 is converted to the largest possible time. -/
theorem C71_false_1969 : (parsedDate 23#8 (ascii "691231235959Z") []).map (·.toNat) = .ok (2 ^ 64 - 1) := by decide +kernel

end Verif.Props
