import Verif.Proof.Asn1

/-! Properties C69, C70: include/caligo/Asn1.h. -/

namespace Verif.Props
open Verif.Model Verif.Proof Verif.Spec

/-! ### C69 -/

/-- The way the parsers use a view: `while (!v.empty()) elements.push_back(v.read());`, at most `k` passes. -/
def readAll : Nat → View → Out (List (Byte × Span) × View)
  | 0, _ => .error .diverges
  | k + 1, v =>
    if v.empty then .ok ([], v)
    else do
      let r ← v.read
      let t ← readAll k r.2
      return (r.1 :: t.1, t.2)

theorem readAll_at : ∀ (elems : List (Byte × List Byte)) (k : Nat) (v : View) (post : List Byte), elems.length < k →
    (tlvs elems).length < 2 ^ 64 → At v (tlvs elems) post → ∃ xs v', readAll k v = .ok (xs, v') ∧ v'.empty = true ∧
      xs.map (fun x => (x.1, x.2.bytes)) = elems ∧ ∀ x ∈ xs, x.2.size ≤ x.2.rest.length
  | [], k, v, post, hk, _, h => by
    obtain ⟨k, rfl⟩ : ∃ j, k = j + 1 := ⟨k - 1, by simp at hk; omega⟩
    have he : v.empty = true := by rw [h.empty_iff]; rfl
    exact ⟨[], v, by rw [readAll, if_pos he], he, rfl, by simp⟩
  | (tag, c) :: t, k, v, post, hk, hl, h => by
    obtain ⟨k, rfl⟩ : ∃ j, k = j + 1 := ⟨k - 1, by simp at hk; omega⟩
    have hcons : tlvs ((tag, c) :: t) = tlv tag c ++ tlvs t := by simp [tlvs]
    rw [hcons, List.length_append, tlv_length] at hl
    rw [hcons] at h
    have hne : ¬ v.empty = true := by
      rw [h.empty_iff, decide_eq_true_eq]
      intro e
      have := congrArg List.length e
      rw [List.length_append, tlv_length] at this
      have := hdrLen_ge c.length
      simp at *; omega
    obtain ⟨v1, e1, a1⟩ := read_tlv h (by omega)
    obtain ⟨xs, v2, e2, em, em2, hx⟩ := readAll_at t k v1 post (by simp at hk; omega) (by omega) a1
    refine ⟨(tag, ⟨c ++ (tlvs t ++ post), c.length⟩) :: xs, v2, ?_, em, ?_, ?_⟩
    · rw [readAll, if_neg hne, e1, ok_bind, e2, ok_bind]; rfl
    · rw [List.map_cons, em2]; simp [span_bytes]
    · intro x hx'
      rcases List.mem_cons.mp hx' with rfl | hm
      · simp
      · exact hx x hm

/-- C69: reading until the view is empty from the concatenation of DER elements, wherever it lies in an array, returns exactly these tags and
contents in order, and all spans lie inside the array. -/
theorem C69_read_inverts (elems : List (Byte × List Byte)) (post : List Byte) (h : (tlvs elems).length < 2 ^ 64) :
    ∃ xs v', readAll (elems.length + 1) (viewOf ⟨tlvs elems ++ post, (tlvs elems).length⟩) = .ok (xs, v') ∧ v'.empty = true ∧
      xs.map (fun x => (x.1, x.2.bytes)) = elems ∧ ∀ x ∈ xs, x.2.size ≤ x.2.rest.length :=
  readAll_at elems _ _ post (by omega) h (at_view _ _)

/-- A case that meets the hypotheses of `C69_read_inverts`. -/
example := C69_read_inverts [(0x02#8, [1#8, 2#8]), (0x04#8, [])] [9#8] (by decide)

/-- C69, consequence: different lists of elements have different encodings. -/
theorem C69_injective (a b : List (Byte × List Byte)) (ha : (tlvs a).length < 2 ^ 64) (h : tlvs a = tlvs b) : a = b := by
  obtain ⟨xs, v, e, _, m, _⟩ := readAll_at a (max a.length b.length + 1) (viewOf (spanOf (tlvs a))) [] (by omega) ha (at_whole _)
  obtain ⟨ys, w, e', _, m', _⟩ := readAll_at b (max a.length b.length + 1) (viewOf (spanOf (tlvs b))) [] (by omega) (h ▸ ha) (at_whole _)
  rw [h, e'] at e
  rw [← m, ← m']
  injection e with e
  injection e with e _
  rw [e]

example : tlvs [(0x02#8, [0x05#8]), (0x04#8, List.replicate 200 0xaa#8)] =
    [0x02#8, 0x01#8, 0x05#8, 0x04#8, 0x81#8, 0xc8#8] ++ List.replicate 200 0xaa#8 := by decide +kernel
example : (tlvs [(0x02#8, [0x05#8]), (0x04#8, List.replicate 200 0xaa#8)]).length < 2 ^ 64 := by decide +kernel
example : (readAll 3 (viewOf (spanOf (tlvs [(0x02#8, [0x05#8]), (0x30#8, [])])))).map (fun r => r.1.map (fun x => (x.1, x.2.bytes))) =
    .ok [(0x02#8, [0x05#8]), (0x30#8, [])] := by decide +kernel

/-! ### C70 -/

/-- C70, full claim: `read` and `peek` on any view inside an array return, `read` an element that ends inside the view, or report an error. -/
def C70_claim : Prop := ∀ v : View, v.data.size ≤ v.data.rest.length → v.offset ≤ v.data.size →
  (v.read = .error .thrown ∨ ∃ r, v.read = .ok r ∧ r.2.offset ≤ v.data.size) ∧ v.peek ≠ .error .ub

/-- C70: what `read` does on every view. It succeeds exactly if identifier and length octets lie inside the view and the content, whose length is
the encoded number modulo `2^64`, ends inside the *array*; otherwise it is undefined behaviour. It never reports an error. -/
theorem C70_partial (v : View) (hv : v.data.size ≤ v.data.rest.length) :
    (v.read = match berHeader (v.data.bytes.drop v.offset) with
      | none => .error .ub
      | some h => if v.data.rest.length < v.offset + h.2.2 + h.2.1 % 2 ^ 64 then .error .ub
        else .ok ((h.1, ⟨v.data.rest.drop (v.offset + h.2.2), h.2.1 % 2 ^ 64⟩), ⟨v.data, v.offset + h.2.2 + h.2.1 % 2 ^ 64⟩)) ∧
    (v.peek = if v.offset < v.data.size then .ok (v.data.bytes.getD v.offset 0#8) else .error .ub) := by
  refine ⟨read_exact v hv, ?_⟩
  rw [View.peek]
  by_cases h : v.offset < v.data.size
  · rw [if_pos h, get_ok hv h]
  · rw [if_neg h, get_ub (by omega)]

/-- A case that meets the hypotheses of `C70_partial`. -/
example := C70_partial (viewOf ⟨[0x30#8, 0x02#8, 0x05#8, 0x00#8], 3⟩) (by decide)

/-- C70 for a view of a whole array: whatever the bytes, an element that is returned lies inside the array. -/
theorem C70_whole_partial (data : List Byte) (off : Nat) (id : Byte) (s : Span) (v' : View) (h : View.read ⟨spanOf data, off⟩ = .ok ((id, s), v')) :
    off < data.length ∧ s.bytes.length = s.size ∧ v'.offset ≤ data.length ∧ off + 2 ≤ v'.offset ∧
      ∃ k, s.bytes = (data.drop k).take s.size ∧ off < k ∧ k + s.size = v'.offset := by
  rw [read_exact _ (spanOf_ok data)] at h
  simp only [spanOf_bytes] at h
  cases hb : berHeader (data.drop off) with
  | none => rw [hb] at h; exact nomatch h
  | some hd =>
    rw [hb] at h
    obtain ⟨tag, len, hl⟩ := hd
    have h2 : 2 ≤ hl ∧ 0 < (data.drop off).length := by
      revert hb
      match data.drop off with
      | [] => exact (nomatch ·)
      | [_] => exact (nomatch ·)
      | a :: b :: t =>
        rw [berHeader]; intro hb
        refine ⟨?_, by simp⟩
        split at hb
        · injection hb with hb; injection hb with _ hb; injection hb with _ hb; omega
        · split at hb
          · exact nomatch hb
          · injection hb with hb; injection hb with _ hb; injection hb with _ hb; omega
    rw [List.length_drop] at h2
    change (if data.length < off + hl + len % 2 ^ 64 then Except.error Fault.ub
      else Except.ok ((tag, (⟨data.drop (off + hl), len % 2 ^ 64⟩ : Span)), (⟨spanOf data, off + hl + len % 2 ^ 64⟩ : View))) = Except.ok ((id, s), v') at h
    by_cases hlt : data.length < off + hl + len % 2 ^ 64
    · rw [if_pos hlt] at h; exact nomatch h
    · rw [if_neg hlt] at h
      injection h with h
      injection h with h h'
      injection h with _ h
      subst h h'
      simp only [Span.bytes, List.length_take, List.length_drop]
      exact ⟨by omega, by omega, by omega, by omega, off + hl, rfl, by omega, rfl⟩

example : View.read ⟨spanOf [0x04#8, 0x01#8, 0xaa#8], 0⟩ = .ok ((0x04#8, ⟨[0xaa#8], 1⟩), ⟨spanOf [0x04#8, 0x01#8, 0xaa#8], 3⟩) := by decide +kernel

/-- C70 fails: a truncated element is read beyond the end of the buffer instead of being reported. -/
theorem C70_false_truncated : View.read ⟨spanOf [0x04#8, 0x02#8, 0xaa#8], 0⟩ = .error .ub ∧ View.read ⟨spanOf [0x04#8], 0⟩ = .error .ub ∧
    View.peek ⟨spanOf [], 0⟩ = .error .ub := by decide +kernel

/-- C70 fails: an element inside a SEQUENCE may extend over the bytes that follow the SEQUENCE, without any error. Here the SEQUENCE has the 3
content octets `04 05 11`, and the OCTET STRING read from it has 5 octets. -/
theorem C70_false_nested : ∃ seq v elem v', View.read ⟨spanOf [0x30#8, 0x03#8, 0x04#8, 0x05#8, 0x11#8, 0x22#8, 0x33#8, 0x44#8, 0x55#8], 0⟩ = .ok ((0x30#8, seq), v) ∧
    seq.bytes = [0x04#8, 0x05#8, 0x11#8] ∧ (viewOf seq).read = .ok ((0x04#8, elem), v') ∧
    elem.bytes = [0x11#8, 0x22#8, 0x33#8, 0x44#8, 0x55#8] :=
  ⟨⟨[0x04#8, 0x05#8, 0x11#8, 0x22#8, 0x33#8, 0x44#8, 0x55#8], 3⟩, ⟨spanOf [0x30#8, 0x03#8, 0x04#8, 0x05#8, 0x11#8, 0x22#8, 0x33#8, 0x44#8, 0x55#8], 5⟩,
    ⟨[0x11#8, 0x22#8, 0x33#8, 0x44#8, 0x55#8], 5⟩, ⟨⟨[0x04#8, 0x05#8, 0x11#8, 0x22#8, 0x33#8, 0x44#8, 0x55#8], 3⟩, 7⟩, by decide +kernel⟩

/-- C70 fails: the number of content octets is taken modulo `2^64`. Nine length octets for `2^64` yield an empty element. -/
theorem C70_false_modulus : View.read ⟨spanOf ([0x04#8, 0x89#8, 0x01#8] ++ List.replicate 8 0x00#8), 0⟩ =
    .ok ((0x04#8, ⟨[], 0⟩), ⟨spanOf ([0x04#8, 0x89#8, 0x01#8] ++ List.replicate 8 0x00#8), 11⟩) ∧
    (berHeader ([0x04#8, 0x89#8, 0x01#8] ++ List.replicate 8 0x00#8)) = some (0x04#8, 2 ^ 64, 11) := by decide +kernel

theorem C70_false : ¬ C70_claim := fun h => (h ⟨spanOf [], 0⟩ (by decide) (by decide)).2 (by decide)

end Verif.Props
