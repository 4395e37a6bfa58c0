import Verif.Model.X509
import Verif.Spec.Pem
import Verif.Props.Base64
import Verif.Proof.Rsa
import Verif.Proof.Simd

namespace Verif.Proof
open Verif.Model Verif.Spec

/-- Search by walking along the text. -/
def findGo (pat : List Byte) : List Byte → Nat → Option Nat
  | [], k => if pat.isPrefixOf [] then some k else none
  | c :: t, k => if pat.isPrefixOf (c :: t) then some k else findGo pat t (k + 1)

theorem find_range_shift (p : Nat → Bool) (n k : Nat) : ((List.range n).map (· + k)).find? p = ((List.range n).find? (fun i => p (i + k))).map (· + k) := by
  rw [List.find?_map]; rfl

theorem findGo_range (pat : List Byte) : ∀ (s : List Byte) (k : Nat),
    findGo pat s k = ((List.range (s.length + 1)).find? (fun i => pat.isPrefixOf (s.drop i))).map (· + k)
  | [], k => by
    rw [findGo, List.length_nil, List.range_one, List.find?_cons, List.drop_zero, List.find?_nil]
    cases pat.isPrefixOf []
    · rfl
    · simp
  | c :: t, k => by
    rw [findGo, findGo_range pat t (k + 1), List.length_cons, List.range_succ_eq_map (n := t.length + 1), List.find?_cons, List.drop_zero]
    cases h : pat.isPrefixOf (c :: t)
    · rw [if_neg (by simp)]
      dsimp only
      rw [List.find?_map, Option.map_map]
      congr 1
      funext i
      simp; omega
    · rw [if_pos rfl]
      simp

theorem findFrom_go (s pat : List Byte) (pos : Nat) (h : pos ≤ s.length) : findFrom s pat pos = findGo pat (s.drop pos) pos := by
  rw [findGo_range, findFrom]
  have e : List.range (s.length + 1) = List.range pos ++ (List.range ((s.drop pos).length + 1)).map (· + pos) := by
    rw [List.length_drop, show s.length + 1 = pos + (s.length - pos + 1) by omega, List.range_add]
    congr 1
    refine List.map_congr_left fun a _ => Nat.add_comm _ _
  rw [e, List.find?_append, List.find?_eq_none.mpr (by
    intro x hx
    rw [List.mem_range] at hx
    simp; omega), Option.none_or, List.find?_map]
  congr 1
  refine List.find?_congr fun i _ => ?_
  simp [Nat.add_comm]

/-- Text without hyphens is skipped. -/
theorem findGo_skip {pat : List Byte} (hp : pat.head? = some 0x2d#8) : ∀ (t r : List Byte) (k : Nat), 0x2d#8 ∉ t → findGo pat (t ++ r) k = findGo pat r (k + t.length)
  | [], r, k, _ => rfl
  | c :: t, r, k, h => by
    rw [List.cons_append, findGo, if_neg, findGo_skip hp t r (k + 1) (fun hm => h (List.mem_cons_of_mem _ hm)), List.length_cons]
    · congr 1; omega
    · intro hpre
      cases pat with
      | nil => exact nomatch hp
      | cons a q =>
        injection hp with hp
        subst hp
        rw [List.isPrefixOf, Bool.and_eq_true, beq_iff_eq] at hpre
        exact h (hpre.1 ▸ List.mem_cons_self)

theorem findGo_here (pat r : List Byte) (k : Nat) : findGo pat (pat ++ r) k = some k := by
  cases h : pat ++ r with
  | nil =>
    rw [List.append_eq_nil_iff] at h
    rw [h.1]; rfl
  | cons c t =>
    rw [findGo, if_pos]
    rw [← h, List.isPrefixOf_iff_prefix]
    exact List.prefix_append _ _

theorem marks_eq : beginCertificate = beginMark ∧ endCertificate = endMark := ⟨rfl, rfl⟩

theorem findGo_begin_in_begin {c : Byte} (hc : c ∈ whitespace) (r : List Byte) (k : Nat) :
    findGo beginMark (beginMark.tail ++ c :: r) k = findGo beginMark r (k + 27) := by
  simp only [whitespace, List.mem_cons, List.not_mem_nil, or_false] at hc
  rcases hc with rfl | rfl | rfl | rfl <;> rfl

theorem findGo_begin_in_end {c : Byte} (hc : c ∈ whitespace) (r : List Byte) (k : Nat) :
    findGo beginMark (endMark ++ c :: r) k = findGo beginMark r (k + 26) := by
  simp only [whitespace, List.mem_cons, List.not_mem_nil, or_false] at hc
  rcases hc with rfl | rfl | rfl | rfl <;> rfl

theorem findGo_end_in_begin {c : Byte} (hc : c ∈ whitespace) (r : List Byte) (k : Nat) :
    findGo endMark (beginMark ++ c :: r) k = findGo endMark r (k + 28) := by
  simp only [whitespace, List.mem_cons, List.not_mem_nil, or_false] at hc
  rcases hc with rfl | rfl | rfl | rfl <;> rfl

theorem base64Of_nodash {der text : List Byte} (h : Base64Of der text) : 0x2d#8 ∉ text := by
  intro hm
  have h1 : 0x2d#8 ∈ text.filter (fun c => !whitespace.contains c) := List.mem_filter.mpr ⟨hm, by decide⟩
  rw [h, base64Text, List.mem_append] at h1
  rcases h1 with h1 | h1
  · obtain ⟨s, _, hs⟩ := List.mem_map.mp h1
    have : ∀ i : Nat, (alphabet '+' '/').getD i 0#8 ≠ 0x2d#8 := by
      intro i hi
      by_cases hl : i < (alphabet '+' '/').length
      · rw [List.getD_eq_getElem _ _ hl] at hi
        exact absurd (hi ▸ List.getElem_mem hl) (by decide +kernel)
      · rw [List.getD_eq_default _ _ (by omega)] at hi
        exact absurd hi (by decide)
    exact this s hs
  · rw [if_neg (by simp)] at h1
    exact absurd (List.eq_of_mem_replicate h1) (by decide)

theorem base64Of_decode {der text : List Byte} (h : Base64Of der text) : base64d text = der := by
  have e : ∀ t : List Byte, t.filterMap Spec.sextetOf = (t.filter (fun c => !whitespace.contains c)).filterMap Spec.sextetOf := by
    intro t
    induction t with
    | nil => rfl
    | cons c t ih =>
      by_cases hc : c ∈ whitespace
      · rw [List.filter_cons, if_neg (by simp [hc]), ← ih, List.filterMap_cons]
        have : sextetOf c = none := by
          simp only [whitespace, List.mem_cons, List.not_mem_nil, or_false] at hc
          rcases hc with rfl | rfl | rfl | rfl <;> decide
        rw [this]
      · rw [List.filter_cons, if_pos (by simp [hc]), List.filterMap_cons, List.filterMap_cons, ih]
  have ht := Props.filterMap_text .PlusSlash false der
  rw [base64d_eq, e, h]
  conv_rhs => rw [← unsextets_sextets _ der (le_refl _), ← ht]
  rfl

theorem marks_length : beginMark.length = 27 ∧ endMark.length = 25 := ⟨rfl, rfl⟩

/-- The armour is removed; the first certificate is taken. -/
theorem pemBody_spec (pre body r : List Byte) (hp : 0x2d#8 ∉ pre) (hb : 0x2d#8 ∉ body) (hw : startsWhite body)
    (hl : (pre ++ (beginMark ++ (body ++ (endMark ++ r)))).length < 2 ^ 64) :
    pemBody (pre ++ (beginMark ++ (body ++ (endMark ++ r)))) beginCertificate endCertificate = .ok (base64d body) := by
  obtain ⟨m1, m2⟩ := marks_length
  have hh : beginMark.head? = some 0x2d#8 := rfl
  have hh' : endMark.head? = some 0x2d#8 := rfl
  have e1 : findFrom (pre ++ (beginMark ++ (body ++ (endMark ++ r)))) beginMark 0 = some pre.length := by
    rw [findFrom_go _ _ _ (Nat.zero_le _), List.drop_zero, findGo_skip hh _ _ _ hp, findGo_here, Nat.zero_add]
  have e2 : findFrom (pre ++ (beginMark ++ (body ++ (endMark ++ r)))) endMark 0 = some (pre.length + 27 + body.length) := by
    rw [findFrom_go _ _ _ (Nat.zero_le _), List.drop_zero, findGo_skip hh' _ _ _ hp]
    obtain ⟨c, hc, t, rfl⟩ := hw
    rw [List.cons_append, findGo_end_in_begin hc, findGo_skip hh' _ _ _ (fun h => hb (List.mem_cons_of_mem _ h)), findGo_here, List.length_cons]
    congr 1; omega
  simp only [List.length_append, m1, m2] at hl
  rw [pemBody, marks_eq.1, marks_eq.2, e1, e2]
  dsimp only [Option.getD_some]
  rw [Nat.mod_eq_of_lt (by omega), szSub_eq (by omega) (by omega), substr, if_neg (by simp only [List.length_append]; omega), ok_bind,
    show pre.length + 27 + body.length - (pre.length + beginMark.length) = body.length by omega, ← List.append_assoc, ← List.length_append, List.drop_left, List.take_left]
  rfl

theorem block_text_length (b : PemBlock) : b.text.length = 52 + b.body.length + b.gap.length := by
  obtain ⟨m1, m2⟩ := marks_length
  rw [PemBlock.text]; simp only [List.length_append, m1, m2]; omega

/-- The next boundary behind the start of a block is that of the next block. -/
theorem find_next (pre : List Byte) (b : PemBlock) (hb : b.Valid) (r : List Byte) :
    findFrom (pre ++ (b.text ++ r)) beginMark (pre.length + 1) = findGo beginMark r (pre.length + b.text.length) := by
  obtain ⟨m1, m2⟩ := marks_length
  have hh : beginMark.head? = some 0x2d#8 := rfl
  have hl := block_text_length b
  have hnd := base64Of_nodash hb.body
  have hng := hb.gap
  rw [findFrom_go _ _ _ (by simp only [List.length_append]; omega), List.drop_append, List.drop_eq_nil_of_le (by omega), List.nil_append,
    show pre.length + 1 - pre.length = 1 by omega, hl]
  obtain ⟨c, hc, t, ht⟩ := hb.bodyWhite
  obtain ⟨d, hd, u, hu⟩ := hb.gapWhite
  rw [PemBlock.text, ht, hu]
  rw [ht] at hnd
  rw [hu] at hng
  have e : ((beginMark ++ (c :: t ++ (endMark ++ d :: u))) ++ r).drop 1 = beginMark.tail ++ c :: (t ++ (endMark ++ d :: (u ++ r))) := by
    simp [beginMark, ascii]
  rw [e, findGo_begin_in_begin hc, findGo_skip hh _ _ _ (fun h => hnd (List.mem_cons_of_mem _ h)), findGo_begin_in_end hd,
    findGo_skip hh _ _ _ (fun h => hng (List.mem_cons_of_mem _ h)), List.length_cons, List.length_cons]
  congr 1; omega

theorem findGo_nil (k : Nat) : findGo beginMark [] k = none := rfl

theorem find_blocks (bs : List PemBlock) (k : Nat) : findGo beginMark (bs.flatMap PemBlock.text) k = if bs = [] then none else some k := by
  cases bs with
  | nil => rfl
  | cons b bs => rw [List.flatMap_cons, PemBlock.text, List.append_assoc, findGo_here, if_neg (by simp)]

/-- A single block, whatever follows. -/
theorem parse_block (pre : List Byte) (b : PemBlock) (r : List Byte) (hp : 0x2d#8 ∉ pre) (hb : b.Valid) (hl : (pre ++ (b.text ++ r)).length < 2 ^ 64) :
    parseCertificate (pre ++ (b.text ++ r)) .Pem = parseCertificate b.der .Der := by
  have e : pre ++ (b.text ++ r) = pre ++ (beginMark ++ (b.body ++ (endMark ++ (b.gap ++ r)))) := by simp [PemBlock.text]
  rw [e] at hl ⊢
  conv_lhs => rw [parseCertificate]
  rw [pemBody_spec pre b.body (b.gap ++ r) hp (base64Of_nodash hb.body) hb.bodyWhite hl, ok_bind, base64Of_decode hb.body]
  rfl

/-- The loop parses all blocks but the last. -/
theorem bundleLoop_spec : ∀ (bs : List PemBlock) (b : PemBlock) (pre : List Byte) (fuel : Nat) (certs : List Cert), b.Valid → (∀ x ∈ bs, x.Valid) →
    (pre ++ (b.text ++ bs.flatMap PemBlock.text)).length < 2 ^ 64 → bs.length ≤ fuel →
    bundleLoop (pre ++ (b.text ++ bs.flatMap PemBlock.text)) fuel pre.length (if bs = [] then none else some (pre.length + b.text.length)) certs =
      ((b :: bs).dropLast.mapM (fun x => parseCertificate x.der .Der)).map (certs ++ ·)
  | [], b, pre, fuel, certs, _, _, _, _ => by
    rw [if_pos rfl]
    cases fuel <;> simp [bundleLoop, Except.map, pure, Except.pure]
  | c :: bs, b, pre, 0, certs, _, _, _, hf => by simp at hf
  | c :: bs, b, pre, fuel + 1, certs, hb, hbs, hl, hf => by
    have hbl := block_text_length b
    have hc := hbs c (by simp)
    have e : pre ++ (b.text ++ (c :: bs).flatMap PemBlock.text) = (pre ++ b.text) ++ (c.text ++ bs.flatMap PemBlock.text) := by simp
    have ih := bundleLoop_spec bs c (pre ++ b.text) fuel
    rw [if_neg (by simp), bundleLoop]
    have hlen := hl
    simp only [List.length_append] at hlen
    have e1 : substr (pre ++ (b.text ++ (c :: bs).flatMap PemBlock.text)) pre.length (szSub (pre.length + b.text.length) pre.length) = .ok b.text := by
      rw [szSub_eq (by omega) (by omega), substr, if_neg (by simp), Nat.add_sub_cancel_left, List.drop_left, List.take_left]
    have e2 : parseCertificate b.text .Pem = parseCertificate b.der .Der := by
      have := parse_block [] b [] (by simp) hb (by simp; omega)
      simpa using this
    have e3 : findFrom (pre ++ (b.text ++ (c :: bs).flatMap PemBlock.text)) beginCertificate (pre.length + b.text.length + 1) =
        if bs = [] then none else some ((pre ++ b.text).length + c.text.length) := by
      rw [marks_eq.1, e, ← List.length_append, find_next (pre ++ b.text) c hc, find_blocks]
    rw [e1, ok_bind, e2, e3, List.dropLast_cons_cons, List.mapM_cons]
    cases hpar : parseCertificate b.der .Der with
    | error x => rfl
    | ok x =>
      rw [ok_bind, ok_bind, ← List.length_append, e, ih (certs ++ [x]) hc (fun y hy => hbs y (by simp [hy])) (by rw [← e]; exact hl) (by simp at hf; omega)]
      cases (c :: bs).dropLast.mapM (fun x => parseCertificate x.der .Der) with
      | error y => rfl
      | ok l => simp [Except.map, pure, Except.pure, bind, Except.bind]

end Verif.Proof
