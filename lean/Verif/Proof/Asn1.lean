import Verif.Model.Asn1
import Verif.Spec.Der
import Verif.Proof.Pss
import Verif.Proof.Simd

/-! `asn1_view::read` in terms of the header octets, and reading what the DER encoder wrote. -/

namespace Verif.Proof
open Verif.Model Verif.Spec

/-- The span stays inside its array. -/
def Span.Ok (s : Span) : Prop := s.size ≤ s.rest.length

theorem spanOf_ok (v : List Byte) : Span.Ok (spanOf v) := Nat.le_refl _

theorem spanOf_bytes (v : List Byte) : (spanOf v).bytes = v := by simp [spanOf, Span.bytes]

theorem bytes_length {s : Span} (h : Span.Ok s) : s.bytes.length = s.size := by
  rw [Span.bytes, List.length_take]; exact Nat.min_eq_left h

theorem get_ok {s : Span} (h : Span.Ok s) {i : Nat} (hi : i < s.size) : s.get i = .ok (s.bytes.getD i 0#8) := by
  rw [Span.get, if_pos hi, rd_ok_getD 0#8 (Nat.lt_of_lt_of_le hi h), Span.bytes]
  congr 1
  simp [List.getElem?_take, hi]

theorem get_ub {s : Span} {i : Nat} (hi : s.size ≤ i) : s.get i = .error .ub := by
  rw [Span.get, if_neg (by omega)]

theorem mod_step (size b k v : Nat) : (((size * 256 % 2 ^ 64 + b) % 2 ^ 64) * 256 ^ k + v) % 2 ^ 64 = (size * 256 ^ (k + 1) + (b * 256 ^ k + v)) % 2 ^ 64 := by
  have h1 : (size * 256 % 2 ^ 64 + b) % 2 ^ 64 = (size * 256 + b) % 2 ^ 64 := by rw [Nat.mod_add_mod]
  rw [h1, Nat.add_mod, Nat.mod_mul_mod, ← Nat.add_mod]
  congr 1; ring

theorem lenLoop_spec {d : Span} (hd : Span.Ok d) : ∀ (k size off : Nat), size < 2 ^ 64 → lenLoop d k size off =
    if off + k ≤ d.size ∨ k = 0 then .ok ((size * 256 ^ k + beNat ((d.bytes.drop off).take k)) % 2 ^ 64, off + k) else .error .ub
  | 0, size, off, h => by
    rw [lenLoop, if_pos (Or.inr rfl), List.take_zero, pow_zero, mul_one, show beNat [] = 0 from rfl, Nat.add_zero, Nat.mod_eq_of_lt h, Nat.add_zero]
  | k + 1, size, off, h => by
    rw [lenLoop]
    by_cases hi : off < d.size
    · rw [get_ok hd hi, ok_bind, lenLoop_spec hd k _ _ (Nat.mod_lt _ (by decide))]
      have hdrop : d.bytes.drop off = d.bytes.getD off 0#8 :: d.bytes.drop (off + 1) := by
        have : off < d.bytes.length := by rw [bytes_length hd]; exact hi
        rw [List.drop_eq_getElem_cons this]; simp [this]
      by_cases hk : off + (k + 1) ≤ d.size
      · rw [if_pos (by omega), if_pos (by omega), hdrop, List.take_succ_cons, beNat_cons]
        have hl : ((d.bytes.drop (off + 1)).take k).length = k := by
          rw [List.length_take, List.length_drop, bytes_length hd]; omega
        rw [hl, show (2 : Nat) ^ (8 * k) = 256 ^ k by rw [pow_mul]; norm_num, mod_step]
        congr 2; omega
      · rw [if_neg (by omega)]
        by_cases h0 : k = 0
        · omega
        · rw [if_neg (by omega)]
    · rw [get_ub (by omega), if_neg (by omega)]; rfl

theorem byte_split (l : Byte) : (l &&& 0x80#8 ≠ 0#8) = (128 ≤ l.toNat) ∧ (l &&& 0x7F#8).toNat = l.toNat % 128 := by
  revert l; decide +kernel

theorem header_none {l : List Byte} (h : l.length < 2) : berHeader l = none := by
  match l, h with
  | [], _ => rfl
  | [_], _ => rfl

/-- `read` in terms of the header octets inside the view. -/
theorem read_exact (v : View) (hv : Span.Ok v.data) : v.read = match berHeader (v.data.bytes.drop v.offset) with
    | none => .error .ub
    | some h => if v.data.rest.length < v.offset + h.2.2 + h.2.1 % 2 ^ 64 then .error .ub
      else .ok ((h.1, ⟨v.data.rest.drop (v.offset + h.2.2), h.2.1 % 2 ^ 64⟩), ⟨v.data, v.offset + h.2.2 + h.2.1 % 2 ^ 64⟩) := by
  have hbl := bytes_length hv
  rw [View.read]
  by_cases h1 : v.offset + 1 < v.data.size
  · have hdrop : v.data.bytes.drop v.offset = v.data.bytes.getD v.offset 0#8 :: v.data.bytes.getD (v.offset + 1) 0#8 :: v.data.bytes.drop (v.offset + 2) := by
      have a : v.offset < v.data.bytes.length := by omega
      have b : v.offset + 1 < v.data.bytes.length := by omega
      rw [List.drop_eq_getElem_cons a, List.drop_eq_getElem_cons b]; simp [a, b]
    rw [get_ok hv (show v.offset < v.data.size by omega), ok_bind, get_ok hv h1, ok_bind, hdrop]
    generalize v.data.bytes.getD v.offset 0#8 = tag
    generalize v.data.bytes.getD (v.offset + 1) 0#8 = l
    obtain ⟨b1, b2⟩ := byte_split l
    have hl := l.isLt
    rw [readLen, berHeader]
    by_cases hs : l.toNat < 128
    · rw [if_neg (by rw [b1]; omega), ok_bind, if_pos hs]
      have : l.toNat % 2 ^ 64 = l.toNat := Nat.mod_eq_of_lt (by omega)
      simp only [this]
    · rw [if_pos (by rw [b1]; omega), if_neg hs, b2, lenLoop_spec hv _ _ _ (by decide)]
      have hm : l.toNat % 128 = l.toNat - 128 := by omega
      rw [hm, List.length_drop, hbl]
      by_cases hk : v.offset + 2 + (l.toNat - 128) ≤ v.data.size ∨ l.toNat - 128 = 0
      · rw [if_pos hk, if_neg (by omega), ok_bind, zero_mul, zero_add]
        simp only [Nat.add_assoc]
      · rw [if_neg hk, if_pos (by omega)]; rfl
  · rw [header_none (by rw [List.length_drop]; omega)]
    by_cases h0 : v.offset < v.data.size
    · rw [get_ok hv h0, ok_bind, get_ub (by omega)]; rfl
    · rw [get_ub (by omega)]; rfl

theorem minBytes_spec (n : Nat) : beNat (minBytes n) = n ∧ (∀ k, n < 256 ^ k → (minBytes n).length ≤ k) := by
  induction n using Nat.strong_induction_on with
  | _ n ih =>
    by_cases h : n = 0
    · subst h; rw [minBytes_zero]; exact ⟨rfl, fun k _ => Nat.zero_le _⟩
    · rw [minBytes, if_neg h]
      obtain ⟨a, b⟩ := ih (n / 256) (by omega)
      constructor
      · rw [beNat_append, a]
        simp [beNat, leNat]; omega
      · intro k hk
        cases k with
        | zero => simp at hk; omega
        | succ k =>
          have := b k (by rw [Nat.div_lt_iff_lt_mul (by decide), ← pow_succ]; exact hk)
          simp; exact this

/-- Length of the identifier and length octets that DER uses for `n` content octets. -/
def hdrLen (n : Nat) : Nat := 1 + (derLength n).length

theorem berHeader_tlv (tag : Byte) (c post : List Byte) (hc : c.length < 2 ^ 64) : berHeader (tlv tag c ++ post) = some (tag, c.length, hdrLen c.length) := by
  rw [tlv, hdrLen, derLength]
  by_cases h : c.length < 128
  · rw [if_pos h]
    have : (BitVec.ofNat 8 c.length).toNat = c.length := by rw [BitVec.toNat_ofNat]; exact Nat.mod_eq_of_lt (by omega)
    simp only [List.cons_append, List.nil_append, berHeader, this, if_pos h]; rfl
  · rw [if_neg h]
    obtain ⟨a, b⟩ := minBytes_spec c.length
    have hk := b 8 (by rw [show (256 : Nat) ^ 8 = 2 ^ 64 by norm_num]; exact hc)
    have : (BitVec.ofNat 8 (128 + (minBytes c.length).length)).toNat = 128 + (minBytes c.length).length := by
      rw [BitVec.toNat_ofNat]; exact Nat.mod_eq_of_lt (by omega)
    simp only [List.cons_append, List.nil_append, berHeader, this, List.append_assoc, Nat.add_sub_cancel_left, List.length_append, List.length_cons]
    rw [if_neg (by omega), if_neg (by omega), List.take_left, a]
    congr 3; omega

theorem tlv_length (tag : Byte) (c : List Byte) : (tlv tag c).length = hdrLen c.length + c.length := by
  rw [tlv, hdrLen]; simp; omega

theorem hdrLen_ge (n : Nat) : 2 ≤ hdrLen n := by
  rw [hdrLen, derLength]; split <;> (simp; try omega)

theorem tlv_drop (tag : Byte) (c post : List Byte) : (tlv tag c ++ post).drop (hdrLen c.length) = c ++ post := by
  rw [tlv, hdrLen, List.cons_append, Nat.add_comm, List.drop_succ_cons, List.append_assoc, List.drop_left]

/-- The view `v` is about to read `l`, and `post` follows behind it in the array. -/
structure At (v : View) (l post : List Byte) : Prop where
  ok : v.data.size ≤ v.data.rest.length
  size : v.offset + l.length = v.data.size
  rest : v.data.rest.drop v.offset = l ++ post

theorem At.bytes {v : View} {l post : List Byte} (h : At v l post) : v.data.bytes.drop v.offset = l := by
  rw [Span.bytes, List.drop_take, h.rest, show v.data.size - v.offset = l.length by have := h.size; omega, List.take_left]

theorem at_view (c post : List Byte) : At (viewOf ⟨c ++ post, c.length⟩) c post := ⟨by simp [viewOf], by simp [viewOf], by simp [viewOf]⟩

theorem at_whole (c : List Byte) : At (viewOf (spanOf c)) c [] := ⟨by simp [viewOf, spanOf], by simp [viewOf, spanOf], by simp [viewOf, spanOf]⟩

theorem At.empty_iff {v : View} {l post : List Byte} (h : At v l post) : v.empty = decide (l = []) := by
  rw [View.empty, decide_eq_decide, ← List.length_eq_zero_iff]
  have := h.size; omega

theorem span_bytes (c post : List Byte) : (Span.mk (c ++ post) c.length).bytes = c := by rw [Span.bytes, List.take_left]

/-- Reading an element the DER encoder wrote. -/
theorem read_tlv {v : View} {tag : Byte} {c l post : List Byte} (h : At v (tlv tag c ++ l) post) (hc : c.length < 2 ^ 64) :
    ∃ v', v.read = .ok ((tag, ⟨c ++ (l ++ post), c.length⟩), v') ∧ At v' l post := by
  have hs := h.size
  rw [List.length_append, tlv_length] at hs
  have hok := h.ok
  have hd : v.data.rest.drop (v.offset + hdrLen c.length) = c ++ (l ++ post) := by
    rw [← List.drop_drop, h.rest, List.append_assoc, tlv_drop]
  refine ⟨⟨v.data, v.offset + hdrLen c.length + c.length⟩, ?_, hok, by simp only; omega, ?_⟩
  · rw [read_exact v h.ok, h.bytes, berHeader_tlv _ _ _ hc]
    simp only [Nat.mod_eq_of_lt hc, hd]
    rw [if_neg (by omega)]
  · simp only
    rw [← List.drop_drop, hd, List.drop_left]

end Verif.Proof
