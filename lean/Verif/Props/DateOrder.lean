import Verif.Props.Date

/-! C104: the order of dates. -/

namespace Verif.Props
open Verif.Model Verif.Proof Verif.Spec

/-- The content of a DER element with tag `tag` is the date `d`, in either of the two formats of RFC 5280. -/
def EncodesDate (tag : Byte) (content : List Byte) (d : DateTime) : Prop :=
  tag = 24#8 ∧ content = generalizedTime d ∨ tag = 23#8 ∧ content = utcTime d ∧ 1950 ≤ d.year ∧ d.year ≤ 2049

/-- C104, full claim: the parsed times are ordered as the dates are. -/
def C104_claim : Prop := ∀ (d1 d2 : DateTime) (tag1 tag2 : Byte) (c1 c2 post1 post2 : List Byte), d1.Valid → d2.Valid → EncodesDate tag1 c1 d1 → EncodesDate tag2 c2 d2 →
  ∃ t1 t2, parsedDate tag1 c1 post1 = .ok t1 ∧ parsedDate tag2 c2 post2 = .ok t2 ∧ (t1 < t2 ↔ unixTime d1 < unixTime d2)

theorem encodes_parse {tag : Byte} {content : List Byte} {d : DateTime} (h : EncodesDate tag content d) (post : List Byte) :
    parsedDate tag content post = dateOf (digits14 d) := by
  rcases h with ⟨rfl, rfl⟩ | ⟨rfl, rfl, h1, h2⟩
  · rw [parsedDate_eq _ _ _ (generalized_length d), generalized_parse]
  · rw [parsedDate_eq _ _ _ (utc_length d), utc_parse d h1 h2]

/-- The day of the year. -/
theorem yearday_le (d : DateTime) (h : d.Valid) : daysBeforeMonth d.year d.month + d.day ≤ if isLeap d.year then 366 else 365 := by
  have h1 := h.month1
  have h2 := h.month2
  have h3 := h.day2
  generalize d.month = m at *
  interval_cases m <;> cases hl : isLeap d.year <;> simp [daysBeforeMonth, List.range_succ, monthLength, hl] at h3 ⊢ <;> omega

theorem yearday_march (d : DateTime) (h : d.Valid) :
    (2 < d.month → (if isLeap d.year then 60 else 59) < daysBeforeMonth d.year d.month + d.day) ∧
    (d.month ≤ 2 → daysBeforeMonth d.year d.month + d.day ≤ if isLeap d.year then 60 else 59) := by
  have h1 := h.month1
  have h2 := h.month2
  have h3 := h.day2
  have h4 := h.day1
  generalize d.month = m at *
  interval_cases m <;> cases hl : isLeap d.year <;> simp [daysBeforeMonth, List.range_succ, monthLength, hl] at h3 ⊢ <;> omega

theorem year_le (d1 d2 : DateTime) (h1 : d1.Valid) (h2 : d2.Valid) (h : unixTime d1 ≤ unixTime d2) : d1.year ≤ d2.year := by
  by_contra hc
  have hy : daysBeforeYear (d2.year + 1) ≤ daysBeforeYear d1.year := daysBeforeYear_mono (by omega)
  rw [daysBeforeYear] at hy
  have a := yearday_le d2 h2
  have b := h1.day1
  have c1 := h2.hour
  have c2 := h2.minute
  have c3 := h2.second
  rw [unixTime, unixTime] at h
  generalize (if isLeap d2.year then 366 else 365) = z at a hy
  omega

theorem phantoms_mono (d1 d2 : DateTime) (h1 : d1.Valid) (h2 : d2.Valid) (hy1 : 1970 ≤ d1.year) (h : unixTime d1 ≤ unixTime d2) : phantoms d1 ≤ phantoms d2 := by
  have hy := year_le d1 d2 h1 h2 h
  have p1 := phantoms_eq d1 hy1
  have p2 := phantoms_eq d2 (by omega)
  rcases Nat.lt_or_ge d1.year d2.year with hlt | hge
  · split_ifs at p1 p2 <;> omega
  · have he : d1.year = d2.year := by omega
    have hm : 2 < d1.month → 2 < d2.month := by
      intro hm
      by_contra hc
      have a := (yearday_march d1 h1).1 hm
      have b := (yearday_march d2 h2).2 (by omega)
      have c1 := h2.hour
      have c2 := h2.minute
      have c3 := h2.second
      rw [unixTime, unixTime] at h
      rw [he] at a h
      omega
    rw [he] at p1
    split_ifs at p1 p2 <;> omega

/-- C104 from 1970 on, for all four combinations of formats. Also the times differ whenever the dates do. -/
theorem C104_partial (d1 d2 : DateTime) (tag1 tag2 : Byte) (c1 c2 post1 post2 : List Byte) (h1 : d1.Valid) (h2 : d2.Valid) (e1 : EncodesDate tag1 c1 d1)
    (e2 : EncodesDate tag2 c2 d2) (hy1 : 1970 ≤ d1.year) (hy2 : 1970 ≤ d2.year) :
    ∃ t1 t2, parsedDate tag1 c1 post1 = .ok t1 ∧ parsedDate tag2 c2 post2 = .ok t2 ∧ (t1 < t2 ↔ unixTime d1 < unixTime d2) ∧ (t1 = t2 ↔ unixTime d1 = unixTime d2) := by
  obtain ⟨t1, p1, v1⟩ := after_1970 d1 h1 hy1
  obtain ⟨t2, p2, v2⟩ := after_1970 d2 h2 hy2
  refine ⟨t1, t2, by rw [encodes_parse e1, p1], by rw [encodes_parse e2, p2], ?_, ?_⟩
  · rw [BitVec.lt_def]
    constructor
    · intro h
      by_contra hc
      have := phantoms_mono d2 d1 h2 h1 hy2 (by omega)
      omega
    · intro h
      have := phantoms_mono d1 d2 h1 h2 hy1 (by omega)
      omega
  · rw [← BitVec.toNat_inj]
    constructor
    · intro h
      rcases lt_trichotomy (unixTime d1) (unixTime d2) with hc | hc | hc
      · have := phantoms_mono d1 d2 h1 h2 hy1 (by omega)
        omega
      · exact hc
      · have := phantoms_mono d2 d1 h2 h1 hy2 (by omega)
        omega
    · intro h
      have a := phantoms_mono d1 d2 h1 h2 hy1 (by omega)
      have b := phantoms_mono d2 d1 h2 h1 hy2 (by omega)
      omega

/-- A case that meets the hypotheses of `C104_partial`. -/
example := C104_partial ⟨2024, 2, 29, 12, 30, 59⟩ ⟨2207, 12, 31, 23, 59, 59⟩ 23#8 24#8 (utcTime ⟨2024, 2, 29, 12, 30, 59⟩) (generalizedTime ⟨2207, 12, 31, 23, 59, 59⟩) [] [1#8]
  ⟨by decide, by decide, by decide, by decide, by decide, by decide, by decide, by decide⟩ ⟨by decide, by decide, by decide, by decide, by decide, by decide, by decide, by decide⟩
  (.inr ⟨rfl, rfl, by decide, by decide⟩) (.inl ⟨rfl, rfl⟩) (by decide) (by decide)

/-- A date before 1970 and a later one: their order is always reversed. -/
theorem C104_early_partial (d1 d2 : DateTime) (tag1 tag2 : Byte) (c1 c2 post1 post2 : List Byte) (h1 : d1.Valid) (h2 : d2.Valid) (e1 : EncodesDate tag1 c1 d1)
    (e2 : EncodesDate tag2 c2 d2) (hy1 : d1.year < 1970) (hy2 : 1970 ≤ d2.year) :
    ∃ t1 t2, parsedDate tag1 c1 post1 = .ok t1 ∧ parsedDate tag2 c2 post2 = .ok t2 ∧ t2 < t1 := by
  obtain ⟨t1, p1, v1⟩ := before_1970 d1 h1 hy1
  obtain ⟨t2, p2, v2⟩ := after_1970 d2 h2 hy2
  refine ⟨t1, t2, by rw [encodes_parse e1, p1], by rw [encodes_parse e2, p2], ?_⟩
  rw [BitVec.lt_def]
  have a := daysBeforeYear_eq d2.year
  have a2 := daysBeforeYear_eq 1970
  have b := phantoms_eq d2 hy2
  have c := h2.year
  have d := valid_day_lt h2
  have e := daysBeforeMonth_le d2.year d2.month h2.month1 h2.month2
  have f1 := h2.hour
  have f2 := h2.minute
  have f3 := h2.second
  rw [unixTime] at v2
  split_ifs at b <;> omega

/-- C104 fails: the last second of 1969 comes after the first of 1970. -/
theorem C104_false : ¬ C104_claim := by
  intro h
  have v1 : DateTime.Valid ⟨1969, 12, 31, 23, 59, 59⟩ := ⟨by decide, by decide, by decide, by decide, by decide, by decide, by decide, by decide⟩
  have v2 : DateTime.Valid ⟨1970, 1, 1, 0, 0, 0⟩ := ⟨by decide, by decide, by decide, by decide, by decide, by decide, by decide, by decide⟩
  have e1 : EncodesDate 23#8 (utcTime ⟨1969, 12, 31, 23, 59, 59⟩) ⟨1969, 12, 31, 23, 59, 59⟩ := Or.inr ⟨rfl, rfl, by decide, by decide⟩
  have e2 : EncodesDate 23#8 (utcTime ⟨1970, 1, 1, 0, 0, 0⟩) ⟨1970, 1, 1, 0, 0, 0⟩ := Or.inr ⟨rfl, rfl, by decide, by decide⟩
  obtain ⟨t1, t2, p1, p2, hiff⟩ := h _ _ _ _ _ _ [] [] v1 v2 e1 e2
  obtain ⟨s1, s2, q1, q2, hlt⟩ := C104_early_partial _ _ _ _ _ _ [] [] v1 v2 e1 e2 (by decide) (by decide)
  obtain rfl := Except.ok.inj (p1.symm.trans q1)
  obtain rfl := Except.ok.inj (p2.symm.trans q2)
  have := hiff.mpr (by decide +kernel)
  rw [BitVec.lt_def] at this hlt
  omega

example : ∃ d1 d2 : DateTime, d1.Valid ∧ d2.Valid ∧ EncodesDate 23#8 (utcTime d1) d1 ∧ EncodesDate 24#8 (generalizedTime d2) d2 ∧ 1970 ≤ d1.year ∧ 1970 ≤ d2.year ∧
    unixTime d1 < unixTime d2 :=
  ⟨⟨2024, 2, 29, 23, 59, 59⟩, ⟨2100, 3, 1, 0, 0, 0⟩, ⟨by decide, by decide, by decide, by decide, by decide, by decide, by decide, by decide⟩,
    ⟨by decide, by decide, by decide, by decide, by decide, by decide, by decide, by decide⟩, Or.inr ⟨rfl, rfl, by decide, by decide⟩, Or.inl ⟨rfl, rfl⟩, by decide, by decide,
    by decide +kernel⟩

end Verif.Props
