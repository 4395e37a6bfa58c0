import Verif.Proof.Base64

/-! Properties C14 - C16: base64. -/

namespace Verif.Props
open Verif.Model Verif.Proof

/-! ### C15 -/

/-- C15, alphabets: the three character sets are the RFC 4648 digits with `+/`, `+,` and `-_`. -/
theorem C15_alphabets : getLookupFor .PlusSlash = Spec.alphabet '+' '/' ∧ getLookupFor .PlusComma = Spec.alphabet '+' ',' ∧
    getLookupFor .MinusUnderscore = Spec.alphabet '-' '_' := by decide +kernel

/-- C15. Without newlines the output is the RFC 4648 text; with newlines it is that text broken after 76 characters plus a final line feed. -/
theorem C15_encoding (data : List Byte) (omitEqs : Bool) (cs : Base64CharSet) :
    base64 data false omitEqs cs = Spec.base64Text (getLookupFor cs) omitEqs data ∧
    base64 data true omitEqs cs = Spec.base64Lines (getLookupFor cs) omitEqs data := base64_eq data omitEqs cs

example : Spec.base64Text (Spec.alphabet '+' '/') false (ascii "light work.") = ascii "bGlnaHQgd29yay4=" := by decide +kernel
example : Spec.base64Text (Spec.alphabet '-' '_') true [0xff#8, 0xef#8] = ascii "_-8" := by decide +kernel

/-- text made of lines of at most 76 characters, each ended by a line feed -/
def LinesOk (t : List Byte) : Prop := ∃ ls : List (List Byte), t = ls.flatMap (fun l => l ++ [0x0a#8]) ∧ ∀ l ∈ ls, l.length ≤ 76

theorem short_infix : ∀ (ls : List (List Byte)) (a l b : List Byte), (∀ x ∈ ls, x.length ≤ 76) →
    ls.flatMap (fun l => l ++ [0x0a#8]) = a ++ l ++ b → 0x0a#8 ∉ l → l.length ≤ 76
  | [], a, l, b, _, h, _ => by
      simp at h
      simp [h.2.1]
  | x :: ls, a, l, b, hx, h, hl => by
      rw [List.flatMap_cons] at h
      by_cases ha : x.length + 1 ≤ a.length
      · -- the infix lies in the rest
        have h1 : (x ++ [0x0a#8]) ++ ls.flatMap (fun l => l ++ [0x0a#8]) = a ++ (l ++ b) := by rw [h, List.append_assoc]
        rcases List.append_eq_append_iff.mp h1 with ⟨u, hu, hv⟩ | ⟨u, hu, hv⟩
        · exact short_infix ls u l b (fun y hy => hx y (by simp [hy])) (by rw [hv, List.append_assoc]) hl
        · have hlen := congrArg List.length hu
          simp at hlen
          have : u = [] := List.length_eq_zero_iff.mp (by omega)
          subst this
          refine short_infix ls [] l b (fun y hy => hx y (by simp [hy])) ?_ hl
          simpa using hv.symm
      · -- it starts in the first line
        by_contra hc
        have hx76 := hx x (by simp)
        apply hl
        have hidx : (a ++ l ++ b)[x.length]? = some 0x0a#8 := by
          rw [← h]; simp
        rw [List.append_assoc, List.getElem?_append_right (by omega), List.getElem?_append_left (by omega)] at hidx
        exact List.mem_of_getElem? hidx

/-- C15, line length: no stretch without a line feed is longer than 76 characters. -/
theorem C15_line_length (data : List Byte) (omitEqs : Bool) (cs : Base64CharSet) (a l b : List Byte)
    (h : base64 data true omitEqs cs = a ++ l ++ b) (hl : 0x0a#8 ∉ l) : l.length ≤ 76 := by
  have hok : LinesOk (base64 data true omitEqs cs) := by
    rw [(C15_encoding data omitEqs cs).2, Spec.base64Lines]
    set k := data.length / 3 * 3
    set t := Spec.base64Text (getLookupFor cs) true (data.take k) with ht
    refine ⟨Spec.blocks 76 t ++ [t.drop (t.length / 76 * 76) ++ Spec.base64Text (getLookupFor cs) omitEqs (data.drop k)], ?_, ?_⟩
    · simp [Spec.breakLines]
    · intro x hx
      rw [List.mem_append] at hx
      rcases hx with hx | hx
      · exact le_of_eq (mem_blocks_len _ x hx)
      · rw [List.mem_singleton] at hx
        subst hx
        have h4 : t.length % 4 = 0 := by
          rw [ht, Spec.base64Text]
          simp only [if_true, List.append_nil, List.length_map]
          exact sextets_len4 (data.length / 3) _ (by rw [List.length_take]; omega)
        have htail : (Spec.base64Text (getLookupFor cs) omitEqs (data.drop k)).length ≤ 4 := by
          have hlt : (data.drop k).length < 3 := by rw [List.length_drop]; omega
          generalize data.drop k = d at hlt
          match d, hlt with
          | [], _ => cases omitEqs <;> simp [Spec.base64Text, Spec.sextets, Spec.padCount]
          | [_], _ => cases omitEqs <;> simp [Spec.base64Text, Spec.sextets, Spec.padCount]
          | [_, _], _ => cases omitEqs <;> simp [Spec.base64Text, Spec.sextets, Spec.padCount]
        rw [List.length_append, List.length_drop]
        omega
  obtain ⟨ls, hls, h76⟩ := hok
  exact short_infix ls a l b h76 (by rw [← hls, h]) hl
where
  mem_blocks_len (m : List Byte) : ∀ x ∈ Spec.blocks 76 m, x.length = 76 := by
    induction hm : m.length using Nat.strong_induction_on generalizing m with
    | _ n ih =>
      intro x hx
      rw [Spec.blocks] at hx
      split at hx
      · rcases List.mem_cons.mp hx with rfl | hx
        · rw [List.length_take]; omega
        · exact ih (m.drop 76).length (by simp; omega) _ rfl x hx
      · simp at hx
  sextets_len4 : ∀ (g : Nat) (d : List Byte), d.length = 3 * g → (Spec.sextets d).length % 4 = 0 := by
    intro g
    induction g with
    | zero => intro d hd; have : d = [] := List.length_eq_zero_iff.mp (by omega); subst this; rfl
    | succ g ih =>
      intro d hd
      match d, hd with
      | a :: b :: c :: r, hd =>
        rw [Spec.sextets, List.length_append]
        have := ih r (by simp at hd; omega)
        simp only [List.length_cons, List.length_nil]; omega
      | [a, b], hd => simp at hd; omega
      | [a], hd => simp at hd; omega
      | [], hd => simp at hd

/-- the hypotheses can be met: a stretch of exactly 76 characters between two line feeds -/
example : ∃ a l b, base64 (List.replicate 120 0x41#8) true false .PlusSlash = a ++ l ++ b ∧ 0x0a#8 ∉ l ∧ l.length = 76 :=
  ⟨(base64 (List.replicate 120 0x41#8) true false .PlusSlash).take 77, ((base64 (List.replicate 120 0x41#8) true false .PlusSlash).drop 77).take 76,
    ((base64 (List.replicate 120 0x41#8) true false .PlusSlash).drop 77).drop 76, by decide +kernel⟩

/-! ### C14 -/

theorem sextetOf_alpha (cs : Base64CharSet) : ∀ s < 64, Spec.sextetOf ((getLookupFor cs).getD s 0#8) = some s := by
  cases cs <;> decide +kernel

theorem filterMap_alpha (cs : Base64CharSet) : ∀ (l : List Nat), (∀ x ∈ l, x < 64) →
    (l.map (fun s => (getLookupFor cs).getD s 0#8)).filterMap Spec.sextetOf = l
  | [], _ => rfl
  | s :: l, h => by
      rw [List.map_cons, List.filterMap_cons, sextetOf_alpha cs s (h s (by simp)), filterMap_alpha cs l (fun x hx => h x (by simp [hx]))]

theorem filterMap_text (cs : Base64CharSet) (om : Bool) (d : List Byte) :
    (Spec.base64Text (getLookupFor cs) om d).filterMap Spec.sextetOf = Spec.sextets d := by
  rw [Spec.base64Text, List.filterMap_append, filterMap_alpha cs _ (sextets_lt _ d (le_refl _))]
  have : ∀ n, (List.replicate n 0x3d#8).filterMap Spec.sextetOf = [] := by
    intro n
    rw [List.filterMap_eq_nil_iff]
    intro a ha
    rw [List.eq_of_mem_replicate ha]
    decide
  cases om <;> simp [this]

theorem filterMap_breakLines (t : List Byte) : (Spec.breakLines t).filterMap Spec.sextetOf = t.filterMap Spec.sextetOf := by
  rw [Spec.breakLines]
  induction hm : t.length using Nat.strong_induction_on generalizing t with
  | _ n ih =>
    by_cases h : 76 ≤ t.length
    · have hi := ih (t.drop 76).length (by simp; omega) (t.drop 76) rfl
      rw [blocks_cons (by decide) h, List.flatMap_cons]
      conv_rhs => rw [← List.take_append_drop 76 t, List.filterMap_append, ← hi]
      rw [List.length_drop, List.drop_drop, show 76 + (t.length - 76) / 76 * 76 = n / 76 * 76 by omega]
      simp only [List.filterMap_append, List.filterMap_cons, List.filterMap_nil, show Spec.sextetOf 0x0a#8 = none by decide]
      simp
    · rw [blocks_lt (by omega), ← hm, Nat.div_eq_of_lt (by omega)]
      simp

/-- C14. Decoding inverts encoding, for every byte string and every option. -/
theorem C14_round_trip (data : List Byte) (withNewlines omitEqs : Bool) (cs : Base64CharSet) :
    base64d (base64 data withNewlines omitEqs cs) = data := by
  rw [base64d_eq]
  conv_rhs => rw [← unsextets_sextets _ data (le_refl _)]
  congr 1
  cases withNewlines
  · rw [(C15_encoding data omitEqs cs).1, filterMap_text]
  · rw [(C15_encoding data omitEqs cs).2, Spec.base64Lines]
    simp only [List.filterMap_append, filterMap_breakLines, filterMap_text, List.filterMap_cons, List.filterMap_nil,
      show Spec.sextetOf 0x0a#8 = none by decide, List.append_nil]
    rw [← sextets_append (data.length / 3) _ _ (by rw [List.length_take]; omega), List.take_append_drop]

/-- Consequence: encoding is injective. -/
theorem C14_encoding_injective (d d' : List Byte) (nl om : Bool) (cs : Base64CharSet) (h : base64 d nl om cs = base64 d' nl om cs) : d = d' := by
  rw [← C14_round_trip d nl om cs, h, C14_round_trip]

/-- A case that meets the hypotheses of `C14_encoding_injective`. -/
example := C14_encoding_injective [1#8, 2#8] [1#8, 2#8] true false .PlusSlash rfl

/-! ### C16 -/

/-- The accepted characters. -/
def accepted (c : Byte) : Bool :=
  c ∈ ascii "ABCDEFGHIJKLMNOPQRSTUVWXYZabcdefghijklmnopqrstuvwxyz0123456789+-/_,"

theorem accepted_iff (c : Byte) : accepted c = (Spec.sextetOf c).isSome := by
  revert c; decide +kernel

/-- C16. The result is determined by the accepted characters alone: two texts with the same accepted characters decode alike. -/
theorem C16_foreign_ignored (t t' : List Byte) (h : t.filter accepted = t'.filter accepted) : base64d t = base64d t' := by
  have e : ∀ t : List Byte, t.filterMap Spec.sextetOf = (t.filter accepted).filterMap Spec.sextetOf := by
    intro t
    induction t with
    | nil => rfl
    | cons c t ih =>
      rw [List.filterMap_cons, List.filter_cons, accepted_iff]
      cases hc : Spec.sextetOf c with
      | none => simp [ih]
      | some n => simp [hc, ih]
  rw [base64d_eq, base64d_eq, e t, e t', h]

/-- A case that meets the hypotheses of `C16_foreign_ignored`. -/
example := C16_foreign_ignored [0x41#8, 0x0a#8, 0x42#8] [0x20#8, 0x41#8, 0x42#8] (by decide +kernel)

/-- C16. Inserting foreign characters anywhere does not change the result. -/
theorem C16_insert_foreign (a junk b : List Byte) (hj : ∀ c ∈ junk, accepted c = false) : base64d (a ++ junk ++ b) = base64d (a ++ b) := by
  apply C16_foreign_ignored
  have : junk.filter accepted = [] := List.filter_eq_nil_iff.mpr (by simpa using hj)
  simp [this]

/-- A case that meets the hypotheses of `C16_insert_foreign`. -/
example := C16_insert_foreign [0x41#8] [0x0a#8, 0x20#8] [0x42#8] (by decide +kernel)

/-- C16. The length of the result is `⌊6k/8⌋` for `k` accepted characters. -/
theorem C16_length (t : List Byte) : (base64d t).length = 6 * (t.filter accepted).length / 8 := by
  rw [base64d_eq, unsextets_length _ _ (le_refl _)]
  congr 2
  induction t with
  | nil => rfl
  | cons c t ih =>
    rw [List.filterMap_cons, List.filter_cons, accepted_iff]
    cases Spec.sextetOf c <;> simp [ih]

/-- C16. What the decoder computes from the accepted characters. -/
theorem C16_value (t : List Byte) : base64d t = Spec.unsextets (t.filterMap Spec.sextetOf) := base64d_eq t

example : (ascii "QU\nJD=").filter accepted = (ascii "QUJD").filter accepted := by decide +kernel
example : ∀ c ∈ ascii "\n =*", accepted c = false := by decide +kernel

end Verif.Props
