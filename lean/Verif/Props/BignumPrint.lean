import Verif.Model.BignumPrint
import Verif.Spec.HexNumber
import Verif.Proof.BignumOps
import Verif.Proof.Simd

/-! C101: printing bignums. -/

namespace Verif.Props
open Verif.Model Verif.Spec Verif.Proof

theorem strlen_append (s rest : List Byte) (hs : ∀ b ∈ s, b ≠ 0#8) : strlen (s ++ 0#8 :: rest) = .ok s.length := by
  have : (s ++ 0#8 :: rest).findIdx? (fun b => decide (b = 0#8)) = some s.length := by
    induction s with
    | nil => rfl
    | cons a s ih =>
      have ha : a ≠ 0#8 := hs a (by simp)
      rw [List.cons_append, List.findIdx?_cons, if_neg (by simpa using ha), ih (fun b hb => hs b (by simp [hb]))]
      rfl
  rw [strlen, this]

theorem sprintfAt_append (pre s rest : List Byte) (h : s.length + 1 ≤ rest.length) :
    sprintfAt (pre ++ rest) pre.length s = .ok (pre ++ (s ++ 0#8 :: rest.drop (s.length + 1))) := by
  have key : ∀ k, k ≤ s.length + 1 → loop k (pre ++ rest) (fun buffer i => wr buffer (pre.length + i) (s.getD i 0#8)) =
      .ok (pre ++ ((s ++ [0#8]).take k ++ rest.drop k)) := by
    intro k
    induction k with
    | zero => intro _; simp [loop]
    | succ k ih =>
      intro hk
      rw [loop, ih (by omega)]
      show wr _ _ _ = _
      have hl : ((s ++ [0#8]).take k).length = k := by rw [List.length_take, List.length_append, List.length_singleton]; omega
      rw [wr_ok _ (by simp only [List.length_append, hl, List.length_drop]; omega)]
      refine congrArg Except.ok ?_
      rw [List.set_append_right _ _ (by omega), Nat.add_sub_cancel_left, List.set_append_right _ _ (by omega), hl, Nat.sub_self]
      refine congrArg (pre ++ ·) ?_
      rw [List.drop_eq_getElem_cons (by omega : k < rest.length), List.set_cons_zero,
        List.take_succ_eq_append_getElem (by simp; omega : k < (s ++ [0#8]).length), List.append_assoc]
      refine congrArg (List.append ((s ++ [0#8]).take k)) ?_
      show _ = _ :: _
      refine congrArg (fun x : Byte => x :: rest.drop (k + 1)) ?_
      by_cases h1 : k < s.length
      · rw [List.getElem_append_left h1, List.getD_eq_getElem _ _ h1]
      · have h2 : k = s.length := by omega
        subst h2
        simp
  rw [sprintfAt, key _ (Nat.le_refl _), List.take_of_length_le (by simp)]
  simp

theorem hexUpper_ne (n : Nat) (h : n < 16) : hexUpper n ≠ 0#8 ∧ hexUpper n ≠ 0x20#8 ∧ upperDigit (hexUpper n) = some n := by
  have : ∀ n : Fin 16, hexUpper n ≠ 0#8 ∧ hexUpper n ≠ 0x20#8 ∧ upperDigit (hexUpper n) = some n.val := by decide
  exact this ⟨n, h⟩

theorem fmt_ne (w : U32) : ∀ b ∈ fmt08X w, b ≠ 0#8 := by
  intro b hb
  rw [fmt08X, List.mem_append] at hb
  rcases hb with hb | hb
  · rw [List.mem_map] at hb
    obtain ⟨s, -, rfl⟩ := hb
    exact (hexUpper_ne _ (Nat.mod_lt _ (by decide))).1
  · rw [List.mem_singleton] at hb; subst hb; decide

theorem fmt_length (w : U32) : (fmt08X w).length = 9 := rfl

theorem flat_length (l : List U32) : (l.flatMap fmt08X).length = 9 * l.length := by
  induction l with
  | nil => rfl
  | cons a l ih => rw [List.flatMap_cons, List.length_append, ih, fmt_length, List.length_cons]; omega

theorem flat_ne (l : List U32) : ∀ b ∈ l.flatMap fmt08X, b ≠ 0#8 := by
  intro b hb
  rw [List.mem_flatMap] at hb
  obtain ⟨w, -, hb⟩ := hb
  exact fmt_ne w b hb

/-- The text is written inside the buffer, whatever that held before. -/
theorem bnPrint_spec (garbage : List Byte) (v : List U32) (hv : v ≠ []) (hg : garbage.length = 10 * v.length) (hv2 : v.length < 2 ^ 59) : bnPrint garbage v = .ok (bnToString v) := by
  have hN : 0 < v.length := List.length_pos_of_ne_nil hv
  obtain ⟨b0, e0, ⟨r0, hr0⟩⟩ : ∃ b0, wr garbage 0 0#8 = .ok b0 ∧ ∃ r, b0 = 0#8 :: r ∧ r.length + 1 = 10 * v.length := by
    cases garbage with
    | nil => rw [List.length_nil] at hg; omega
    | cons g r => exact ⟨0#8 :: r, by rw [wr_ok _ (by simp)]; rfl, r, rfl, by simpa using hg⟩
  have step := loop_inv (n := v.length) (s := b0) (body := printWord v)
    (fun k (b : List Byte) => ∃ r, b = (v.reverse.take k).flatMap fmt08X ++ 0#8 :: r ∧ b.length = 10 * v.length)
    ⟨r0, by rw [hr0.1]; rfl, by rw [hr0.1]; simpa using hr0.2⟩
    (by
      rintro k hk b ⟨r, rfl, hl⟩
      have hlen : (v.reverse.take k).length = k := by rw [List.length_take, List.length_reverse]; omega
      have hrl : r.length + 1 = 10 * v.length - 9 * k := by
        rw [List.length_append, flat_length, hlen, List.length_cons] at hl; omega
      rw [printWord, strlen_append _ _ (flat_ne _)]
      have hw : rd v (v.length - k - 1) = .ok (v.reverse[k]'(by simpa using hk)) := by
        rw [rd_ok (by omega)]
        refine congrArg Except.ok ?_
        rw [List.getElem_reverse]
        congr 1; omega
      have ht : v.reverse.take (k + 1) = v.reverse.take k ++ [v.reverse[k]'(by simpa using hk)] :=
        List.take_succ_eq_append_getElem (by simpa using hk)
      rw [show (do let len ← Except.ok (α := Nat) (ε := Fault) ((v.reverse.take k).flatMap fmt08X).length
                   let w ← rd v (v.length - k - 1)
                   sprintfAt ((v.reverse.take k).flatMap fmt08X ++ 0#8 :: r) len (fmt08X w)) =
          sprintfAt ((v.reverse.take k).flatMap fmt08X ++ 0#8 :: r) ((v.reverse.take k).flatMap fmt08X).length (fmt08X (v.reverse[k]'(by simpa using hk))) by
        rw [hw]; rfl]
      rw [sprintfAt_append _ _ _ (by rw [fmt_length, List.length_cons]; omega)]
      refine ⟨_, rfl, _, by rw [ht, List.flatMap_append, List.flatMap_singleton, List.append_assoc], ?_⟩
      simp only [List.length_append, List.length_cons, List.length_drop, flat_length, hlen, fmt_length]
      omega)
  obtain ⟨b, e1, r, hb, hl⟩ := step
  rw [List.take_of_length_le (by simp)] at hb
  have hne : v.reverse.flatMap fmt08X ≠ [] := by
    intro h
    have := congrArg List.length h
    rw [flat_length, List.length_reverse] at this
    rw [List.length_nil] at this; omega
  have hsplit : v.reverse.flatMap fmt08X = bnToString v ++ [(v.reverse.flatMap fmt08X).getLast hne] := (List.dropLast_append_getLast hne).symm
  have hbl : (bnToString v).length = 9 * v.length - 1 := by rw [bnToString, List.length_dropLast, flat_length, List.length_reverse]
  have hs2 : strlen b = .ok (9 * v.length) := by rw [hb, strlen_append _ _ (flat_ne _), flat_length, List.length_reverse]
  have hsz : (9 * v.length + 2 ^ 64 - 1) % 2 ^ 64 = 9 * v.length - 1 := by omega
  rw [bnPrint, e0, ok_bind, e1, ok_bind, hs2, ok_bind]
  have hset : b.set (9 * v.length - 1) 0#8 = bnToString v ++ 0#8 :: 0#8 :: r := by
    rw [hb, hsplit, List.append_assoc, List.set_append_right _ _ (by omega), hbl, Nat.sub_self]
    rfl
  have hnz : ∀ c ∈ bnToString v, c ≠ 0#8 := fun c hc => flat_ne v.reverse c (List.dropLast_subset _ hc)
  rw [hsz, wr_ok _ (by omega), hset, ok_bind, strlen_append _ _ hnz, ok_bind, List.take_left]
  rfl

theorem readHex_digits (n : Nat) : ∀ (ds : List Nat), (∀ d ∈ ds, d < 16) → ∀ (t : List Byte) (acc : Nat),
    readHex (ds.map hexUpper ++ t) acc = readHex t (ds.foldl (fun a d => 16 * a + d) acc)
  | [], _, t, acc => rfl
  | d :: ds, h, t, acc => by
    obtain ⟨-, h2, h3⟩ := hexUpper_ne d (h d (by simp))
    rw [List.map_cons, List.cons_append, readHex, if_neg h2, h3, Option.bind_some, readHex_digits n ds (fun x hx => h x (by simp [hx]))]
    rfl

theorem word_digits (w : U32) (acc : Nat) :
    ([28, 24, 20, 16, 12, 8, 4, 0].map (fun s => (w >>> s).toNat % 16)).foldl (fun a d => 16 * a + d) acc = 2 ^ 32 * acc + w.toNat := by
  have h := w.isLt
  simp only [List.map_cons, List.map_nil, List.foldl_cons, List.foldl_nil, BitVec.toNat_ushiftRight, Nat.shiftRight_eq_div_pow]
  omega

theorem readHex_fmt (w : U32) (t : List Byte) (acc : Nat) : readHex (fmt08X w ++ t) acc = readHex t (2 ^ 32 * acc + w.toNat) := by
  have : fmt08X w = ([28, 24, 20, 16, 12, 8, 4, 0].map (fun s => (w >>> s).toNat % 16)).map hexUpper ++ [0x20#8] := rfl
  rw [this, List.append_assoc, readHex_digits 0 _ (by
    intro d hd
    rw [List.mem_map] at hd
    obtain ⟨s, -, rfl⟩ := hd
    exact Nat.mod_lt _ (by decide)), word_digits, List.singleton_append, readHex, if_pos rfl]

theorem readHex_words : ∀ (l : List U32) (t : List Byte) (acc : Nat), readHex (l.flatMap fmt08X ++ t) acc = readHex t (l.foldl (fun a w => 2 ^ 32 * a + w.toNat) acc)
  | [], _, _ => rfl
  | w :: l, t, acc => by rw [List.flatMap_cons, List.append_assoc, readHex_fmt, readHex_words l]; rfl

theorem value_words (v : List U32) : v.reverse.foldl (fun a w => 2 ^ 32 * a + w.toNat) 0 = value v := by
  rw [List.foldl_reverse]
  induction v with
  | nil => rfl
  | cons w v ih => rw [List.foldr_cons, ih, value, Nat.add_comm]

/-- The last character of a text does not matter if it is a space. -/
theorem readHex_space (s : List Byte) : ∀ acc, readHex (s ++ [0x20#8]) acc = readHex s acc := by
  induction s with
  | nil => intro acc; rfl
  | cons b t ih =>
    intro acc
    rw [List.cons_append, readHex, readHex]
    split
    · exact ih acc
    · exact congrArg _ (funext fun d => ih _)

/-- C101: whatever the buffer holds, `to_string` writes inside its `10·N` characters, and the text, read as a hexadecimal number, is the number. -/
theorem C101_print (garbage : List Byte) (v : List U32) (hv : v ≠ []) (hg : garbage.length = 10 * v.length) (hv2 : v.length < 2 ^ 59) :
    ∃ s, bnPrint garbage v = .ok s ∧ s.length = 9 * v.length - 1 ∧ readHex s 0 = some (value v) := by
  refine ⟨_, bnPrint_spec garbage v hv hg hv2, by rw [bnToString, List.length_dropLast, flat_length, List.length_reverse], ?_⟩
  have hlast : v.reverse.flatMap fmt08X = bnToString v ++ [0x20#8] := by
    have hne : v.reverse ≠ [] := by simpa using hv
    have h2 : v.reverse = v.reverse.dropLast ++ [v.reverse.getLast hne] := (List.dropLast_append_getLast hne).symm
    rw [bnToString, h2, List.flatMap_append, List.flatMap_singleton]
    generalize v.reverse.dropLast.flatMap fmt08X = p
    generalize v.reverse.getLast hne = w
    have : fmt08X w = [28, 24, 20, 16, 12, 8, 4, 0].map (fun s => hexUpper ((w >>> s).toNat % 16)) ++ [0x20#8] := rfl
    rw [this, ← List.append_assoc, List.dropLast_concat]
  rw [← readHex_space, ← hlast]
  have := readHex_words v.reverse [] 0
  rw [List.append_nil, value_words] at this
  exact this

/-- A case that meets the hypotheses of `C101_print`. -/
example := C101_print (List.replicate 20 1#8) [5#32, 9#32] (by decide) rfl (by decide)

/-- C101: hence different numbers of the same size have different texts. -/
theorem C101_injective (g1 g2 : List Byte) (v1 v2 : List U32) (hv : v1 ≠ []) (hl : v1.length = v2.length) (h1 : g1.length = 10 * v1.length)
    (h2 : g2.length = 10 * v2.length) (hv2 : v1.length < 2 ^ 59) (h : bnPrint g1 v1 = bnPrint g2 v2) : v1 = v2 := by
  obtain ⟨s1, e1, -, r1⟩ := C101_print g1 v1 hv h1 hv2
  obtain ⟨s2, e2, -, r2⟩ := C101_print g2 v2 (by intro h0; rw [h0] at hl; exact hv (List.length_eq_zero_iff.mp hl)) h2 (by omega)
  obtain rfl : s1 = s2 := Except.ok.inj (e1.symm.trans (h.trans e2))
  exact value_inj hl (Option.some.inj (r1.symm.trans r2))

/-- 64 bits, printed into a buffer full of `x`. -/
example : bnPrint (List.replicate 20 0x78#8) [0x89abcdef#32, 0x1234567#32] = .ok (ascii "01234567 89ABCDEF") := by decide +kernel

end Verif.Props
