import Verif.Model.Bignum
import Verif.Spec.Bignum
import Mathlib.Data.List.GetD

/-! Arithmetic of the word lists. -/

namespace Verif.Proof
open Verif.Model Verif.Spec

/-! ### The value function -/

theorem value_append (a b : List U32) : value (a ++ b) = value a + 2 ^ (32 * a.length) * value b := by
  induction a with
  | nil => simp [value]
  | cons w ws ih =>
    rw [List.cons_append, value, value, ih, List.length_cons, show 32 * (ws.length + 1) = 32 + 32 * ws.length by ring, pow_add]
    ring

theorem value_lt (a : List U32) : value a < 2 ^ (32 * a.length) := by
  induction a with
  | nil => simp [value]
  | cons w ws ih =>
    rw [value, List.length_cons, show 32 * (ws.length + 1) = 32 + 32 * ws.length by ring, pow_add]
    have := w.isLt
    nlinarith

theorem value_inj {a b : List U32} (hl : a.length = b.length) (h : value a = value b) : a = b := by
  induction a generalizing b with
  | nil => exact (List.length_eq_zero_iff.mp hl.symm).symm
  | cons w ws ih =>
    match b, hl with
    | w' :: ws', hl =>
      simp only [value] at h
      have h1 := w.isLt
      have h2 := w'.isLt
      have e1 : w.toNat = w'.toNat := by omega
      have e2 : value ws = value ws' := by omega
      rw [BitVec.eq_of_toNat_eq e1, ih (by simpa using hl) e2]

theorem value_replicate_zero (n : Nat) : value (List.replicate n 0#32) = 0 := by
  induction n with
  | zero => rfl
  | succ n ih => rw [List.replicate_succ, value, ih]; rfl

theorem value_take (a : List U32) (i : Nat) (hi : i ≤ a.length) : value (a.take i) = value a % 2 ^ (32 * i) := by
  have h := value_append (a.take i) (a.drop i)
  rw [List.take_append_drop, List.length_take, Nat.min_eq_left hi] at h
  have hlt := value_lt (a.take i)
  rw [List.length_take, Nat.min_eq_left hi] at hlt
  rw [h, Nat.add_mul_mod_self_left, Nat.mod_eq_of_lt hlt]

theorem value_drop (a : List U32) (i : Nat) (hi : i ≤ a.length) : value (a.drop i) = value a / 2 ^ (32 * i) := by
  have h := value_append (a.take i) (a.drop i)
  rw [List.take_append_drop, List.length_take, Nat.min_eq_left hi] at h
  have hlt := value_lt (a.take i)
  rw [List.length_take, Nat.min_eq_left hi] at hlt
  rw [h, Nat.add_mul_div_left _ _ (by positivity), Nat.div_eq_of_lt hlt, Nat.zero_add]

theorem value_set (v : List U32) (i : Nat) (x : U32) (h : i < v.length) :
    value (v.set i x) + 2 ^ (32 * i) * v[i].toNat = value v + 2 ^ (32 * i) * x.toNat := by
  induction v generalizing i with
  | nil => simp at h
  | cons w ws ih =>
    cases i with
    | zero => simp [value]; omega
    | succ i =>
      have hi : i < ws.length := by simpa using h
      have := ih i hi
      simp only [List.set_cons_succ, value, List.getElem_cons_succ]
      rw [show 32 * (i + 1) = 32 + 32 * i by ring, pow_add]
      calc _ = w.toNat + 2 ^ 32 * (value (ws.set i x) + 2 ^ (32 * i) * ws[i].toNat) := by ring
        _ = _ := by rw [this]; ring

theorem value_take_succ (b : List U32) (j : Nat) (h : j < b.length) :
    value (b.take (j + 1)) = value (b.take j) + 2 ^ (32 * j) * b[j].toNat := by
  rw [List.take_succ_eq_append_getElem h, value_append, List.length_take, Nat.min_eq_left (by omega)]
  simp [value]

theorem getElem_of_value (v : List U32) (i : Nat) (h : i < v.length) : v[i].toNat = value v / 2 ^ (32 * i) % 2 ^ 32 := by
  rw [← value_drop v i (by omega), List.drop_eq_getElem_cons h, value, Nat.add_mul_mod_self_left, Nat.mod_eq_of_lt v[i].isLt]

/-! ### 64-bit accumulators -/

theorem lo32 (t : U64) : ((t &&& 0xffffffff#64).setWidth 32).toNat = t.toNat % 2 ^ 32 := by
  rw [BitVec.toNat_setWidth, BitVec.toNat_and, show BitVec.toNat 0xffffffff#64 = 2 ^ 32 - 1 by rfl, Nat.and_two_pow_sub_one_eq_mod,
    Nat.mod_mod]

theorem hi32 (t : U64) : (t >>> 32).toNat = t.toNat / 2 ^ 32 := by
  rw [BitVec.toNat_ushiftRight, Nat.shiftRight_eq_div_pow]

theorem hi32_lt (t : U64) : (t >>> 32).toNat < 2 ^ 32 := by
  have := t.isLt
  rw [hi32]; omega

/-! ### add / sub -/

theorem bnAddLoop_spec (t : U64) (a b : List U32) (hl : a.length = b.length) (ht : t.toNat ≤ 1) :
    (addLoop t a b).2.length = a.length ∧ (addLoop t a b).1.toNat ≤ 1 ∧
    value (addLoop t a b).2 + 2 ^ (32 * a.length) * (addLoop t a b).1.toNat = value a + value b + t.toNat := by
  induction a generalizing b t with
  | nil =>
    match b, hl with
    | [], _ => simp [addLoop, value, ht]
  | cons x xs ih =>
    match b, hl with
    | y :: ys, hl =>
      simp only [addLoop]
      set T := t + (x.setWidth 64 + y.setWidth 64) with hT
      have hx := x.isLt
      have hy := y.isLt
      have hTn : T.toNat = t.toNat + x.toNat + y.toNat := by
        rw [hT]; simp only [BitVec.toNat_add, BitVec.toNat_setWidth]; omega
      have hhi := hi32 T
      have hlo := lo32 T
      obtain ⟨i1, i2, i3⟩ := ih (T >>> 32) ys (by simpa using hl) (by omega)
      refine ⟨by simp [i1], i2, ?_⟩
      rw [value, value, value, hlo, List.length_cons, show 32 * (xs.length + 1) = 32 + 32 * xs.length by ring, pow_add]
      rw [hhi] at i3
      calc T.toNat % 2 ^ 32 + 2 ^ 32 * value (addLoop (T >>> 32) xs ys).2 + 2 ^ 32 * 2 ^ (32 * xs.length) * (addLoop (T >>> 32) xs ys).1.toNat
          = T.toNat % 2 ^ 32 + 2 ^ 32 * (value (addLoop (T >>> 32) xs ys).2 + 2 ^ (32 * xs.length) * (addLoop (T >>> 32) xs ys).1.toNat) := by ring
        _ = _ := by rw [i3]; omega

theorem bnAdd_length (a b : List U32) (hl : a.length = b.length) : (bnAdd a b).2.length = a.length :=
  (bnAddLoop_spec 0#64 a b hl (by decide)).1

theorem ne_zero_toNat {t : U64} (h : t.toNat ≤ 1) : (if (t != 0#64) then 1 else 0) = t.toNat := by
  by_cases h0 : t = 0#64
  · simp [h0]
  · have : t.toNat ≠ 0 := fun e => h0 (BitVec.eq_of_toNat_eq (by simpa using e))
    simp [h0]; omega

/-- exact addition: carry and sum -/
theorem bnAdd_spec (a b : List U32) (hl : a.length = b.length) :
    value (bnAdd a b).2 + 2 ^ (32 * a.length) * (if (bnAdd a b).1 then 1 else 0) = value a + value b := by
  obtain ⟨_, h1, h2⟩ := bnAddLoop_spec 0#64 a b hl (by decide)
  show value (addLoop 0#64 a b).2 + 2 ^ (32 * a.length) * (if ((addLoop 0#64 a b).1 != 0#64) then 1 else 0) = _
  rw [ne_zero_toNat h1, h2]; rfl

theorem borrow_step (x y : U32) (cw : U64) (c : Nat) (hcw : cw.toNat = c) (hc : c ≤ 1) (T : U64)
    (hT : T = x.setWidth 64 - y.setWidth 64 - cw) :
    T.toNat % 2 ^ 32 + y.toNat + c = x.toNat + 2 ^ 32 * (if T >>> 32 != 0#64 then 1 else 0) := by
  have hx := x.isLt
  have hy := y.isLt
  have hTn : T.toNat = (x.toNat + 2 ^ 64 - y.toNat - c) % 2 ^ 64 := by
    rw [hT]; simp only [BitVec.toNat_sub, BitVec.toNat_setWidth, hcw]; omega
  have hhi := hi32 T
  by_cases hz : T >>> 32 = 0#64
  · have : (T >>> 32).toNat = 0 := by rw [hz]; rfl
    simp only [hz, bne_self_eq_false]
    simp only [Bool.false_eq_true, if_false]
    omega
  · have : (T >>> 32).toNat ≠ 0 := fun e => hz (BitVec.eq_of_toNat_eq (by simpa using e))
    have h1 : (T >>> 32 != 0#64) = true := by simpa using hz
    rw [h1, if_pos rfl]
    omega

theorem subLoop_spec (t : U64) (a b : List U32) (hl : a.length = b.length) :
    (subLoop t a b).2.length = a.length ∧
    value (subLoop t a b).2 + value b + (if t != 0#64 then 1 else 0)
      = value a + 2 ^ (32 * a.length) * (if (subLoop t a b).1 != 0#64 then 1 else 0) := by
  induction a generalizing b t with
  | nil =>
    match b, hl with
    | [], _ => simp [subLoop, value]
  | cons x xs ih =>
    match b, hl with
    | y :: ys, hl =>
      rw [subLoop]
      have hstep := borrow_step x y (if t != 0#64 then 1#64 else 0#64) (if t != 0#64 then 1 else 0) (by split <;> rfl) (by split <;> omega) _ rfl
      revert hstep
      generalize x.setWidth 64 - y.setWidth 64 - (if t != 0#64 then 1#64 else 0#64) = T
      intro hdd
      obtain ⟨i1, i3⟩ := ih (T >>> 32) ys (by simpa using hl)
      refine ⟨by simp [i1], ?_⟩
      show ((T &&& 0xffffffff#64).setWidth 32).toNat + 2 ^ 32 * value (subLoop (T >>> 32) xs ys).2 + _ + _ = _
      rw [value, value, lo32, List.length_cons, show 32 * (xs.length + 1) = 32 + 32 * xs.length by ring, pow_add]
      revert i3 hdd
      generalize (if t != 0#64 then 1 else 0) = c
      generalize (if T >>> 32 != 0#64 then 1 else 0) = d
      intro hdd i3
      calc T.toNat % 2 ^ 32 + 2 ^ 32 * value (subLoop (T >>> 32) xs ys).2 + (y.toNat + 2 ^ 32 * value ys) + c
          = (T.toNat % 2 ^ 32 + y.toNat + c) + 2 ^ 32 * (value (subLoop (T >>> 32) xs ys).2 + value ys) := by ring
        _ = x.toNat + 2 ^ 32 * (value (subLoop (T >>> 32) xs ys).2 + value ys + d) := by rw [hdd]; ring
        _ = x.toNat + 2 ^ 32 * value xs + 2 ^ 32 * 2 ^ (32 * xs.length) * (if (subLoop (T >>> 32) xs ys).1 != 0#64 then 1 else 0) := by rw [i3]; ring

theorem bnSub_length (a b : List U32) (hl : a.length = b.length) : (bnSub a b).2.length = a.length := (subLoop_spec 0#64 a b hl).1

/-- exact subtraction: borrow and difference -/
theorem bnSub_spec (a b : List U32) (hl : a.length = b.length) :
    value (bnSub a b).2 + value b = value a + 2 ^ (32 * a.length) * (if (bnSub a b).1 then 1 else 0) := by
  have h := (subLoop_spec 0#64 a b hl).2
  rw [show (0#64 != 0#64) = false by rfl] at h
  exact h

theorem bnSub_borrow (a b : List U32) (hl : a.length = b.length) : (bnSub a b).1 = true ↔ value a < value b := by
  have h := bnSub_spec a b hl
  have h1 := value_lt (bnSub a b).2
  rw [bnSub_length a b hl] at h1
  have h2 := value_lt a
  cases hb : (bnSub a b).1 <;> rw [hb] at h <;> simp at h ⊢ <;> omega

/-! ### Multiplication -/

theorem mulWordLoop_spec (t : U64) (b : U32) (a : List U32) (ht : t.toNat < 2 ^ 32) :
    (mulWordLoop t b a).length = a.length + 1 ∧ value (mulWordLoop t b a) = value a * b.toNat + t.toNat := by
  induction a generalizing t with
  | nil =>
    simp only [mulWordLoop, value, lo32]
    exact ⟨rfl, by omega⟩
  | cons x xs ih =>
    simp only [mulWordLoop]
    set T := t + x.setWidth 64 * b.setWidth 64 with hT
    have hx := x.isLt
    have hb := b.isLt
    have hm : x.toNat * b.toNat ≤ (2 ^ 32 - 1) * (2 ^ 32 - 1) := Nat.mul_le_mul (by omega) (by omega)
    have hTn : T.toNat = t.toNat + x.toNat * b.toNat := by
      rw [hT]; simp only [BitVec.toNat_add, BitVec.toNat_mul, BitVec.toNat_setWidth]
      rw [Nat.mod_eq_of_lt (show x.toNat < 2 ^ 64 by omega), Nat.mod_eq_of_lt (show b.toNat < 2 ^ 64 by omega)]
      omega
    obtain ⟨i1, i2⟩ := ih (T >>> 32) (hi32_lt T)
    refine ⟨by simp [i1], ?_⟩
    rw [value, value, lo32, i2, hi32, hTn]
    have := Nat.div_add_mod (t.toNat + x.toNat * b.toNat) (2 ^ 32)
    calc _ = (2 ^ 32 * ((t.toNat + x.toNat * b.toNat) / 2 ^ 32) + (t.toNat + x.toNat * b.toNat) % 2 ^ 32) + 2 ^ 32 * (value xs * b.toNat) := by ring
      _ = _ := by rw [this]; ring

theorem loop_ok_bind {α β : Type} (x : α) (f : α → Out β) : ((Except.ok x : Out α) >>= f) = f x := rfl

theorem mac_toNat (t : U64) (a b x : U32) (ht : t.toNat < 2 ^ 32) :
    (t + (a.setWidth 64 * b.setWidth 64 + x.setWidth 64)).toNat = t.toNat + a.toNat * b.toNat + x.toNat := by
  have ha := a.isLt
  have hb := b.isLt
  have hx := x.isLt
  have hm : a.toNat * b.toNat ≤ (2 ^ 32 - 1) * (2 ^ 32 - 1) := Nat.mul_le_mul (by omega) (by omega)
  simp only [BitVec.toNat_add, BitVec.toNat_mul, BitVec.toNat_setWidth]
  rw [Nat.mod_eq_of_lt (show a.toNat < 2 ^ 64 by omega), Nat.mod_eq_of_lt (show b.toNat < 2 ^ 64 by omega)]
  omega

theorem mac_value (y : List U32) (k : Nat) (hk : k < y.length) (T : U64) :
    value (y.set k ((T &&& 0xFFFFFFFF#64).setWidth 32)) + 2 ^ (32 * (k + 1)) * (T >>> 32).toNat + 2 ^ (32 * k) * y[k].toNat
      = value y + 2 ^ (32 * k) * T.toNat := by
  have hset := value_set y k ((T &&& 0xFFFFFFFF#64).setWidth 32) hk
  rw [lo32] at hset
  rw [hi32]
  have hdm := Nat.div_add_mod T.toNat (2 ^ 32)
  have e1 : 2 ^ (32 * (k + 1)) = 2 ^ (32 * k) * 2 ^ 32 := by rw [← pow_add]; congr 1
  rw [e1]
  calc _ = (value (y.set k ((T &&& 0xFFFFFFFF#64).setWidth 32)) + 2 ^ (32 * k) * y[k].toNat)
        + 2 ^ (32 * k) * (2 ^ 32 * (T.toNat / 2 ^ 32)) := by ring
    _ = value y + 2 ^ (32 * k) * (2 ^ 32 * (T.toNat / 2 ^ 32) + T.toNat % 2 ^ 32) := by rw [hset]; ring
    _ = _ := by rw [hdm]

/-- inner loop body of `bnMul` -/
def mulInner (a b : List U32) (i : Nat) (s : List U32 × U64) (j : Nat) : Out (List U32 × U64) :=
  match s with
  | (x, t) => do
      let ai ← rd a i
      let bj ← rd b j
      let xij ← rd x (i + j)
      let t := t + (ai.setWidth 64 * bj.setWidth 64 + xij.setWidth 64)
      let x ← wr x (i + j) ((t &&& 0xFFFFFFFF#64).setWidth 32)
      return (x, t >>> 32)

theorem bnMul_eq (bits : Nat) (a b : List U32) : bnMul bits a b = loop (bnN bits) (List.replicate (bnN (2 * bits)) 0#32) (fun x i => do
    let s ← loop (bnN bits) (x, 0#64) (mulInner a b i)
    wr s.1 (i + bnN bits) ((s.2 &&& 0xFFFFFFFF#64).setWidth 32)) := rfl

theorem mulInner_spec (a b x : List U32) (i N L : Nat) (hx : x.length = L) (hi : i < a.length) (hb : b.length = N) (hL : i + N ≤ L) :
    ∃ s : List U32 × U64, loop N (x, 0#64) (mulInner a b i) = .ok s ∧ (s.1.length = L ∧ s.2.toNat < 2 ^ 32 ∧
      s.1.drop (i + N) = x.drop (i + N) ∧
      value s.1 + 2 ^ (32 * (i + N)) * s.2.toNat = value x + 2 ^ (32 * i) * a[i].toNat * value (b.take N)) := by
  refine loop_inv (fun j (s : List U32 × U64) => s.1.length = L ∧ s.2.toNat < 2 ^ 32 ∧ s.1.drop (i + N) = x.drop (i + N) ∧
            value s.1 + 2 ^ (32 * (i + j)) * s.2.toNat = value x + 2 ^ (32 * i) * a[i].toNat * value (b.take j)) ?_ ?_
  · simp [hx, value]
  · rintro j hj ⟨y, t⟩ ⟨hyl, htl, hyd, hyv⟩
    have hjb : j < b.length := by omega
    have hjy : i + j < y.length := by simp only at hyl; omega
    simp only at hyl htl hyd hyv
    rw [mulInner, rd_ok hi, loop_ok_bind, rd_ok hjb, loop_ok_bind, rd_ok hjy, loop_ok_bind]
    dsimp only
    rw [wr_ok _ hjy, loop_ok_bind]
    refine ⟨_, rfl, by simpa using hyl, hi32_lt _, ?_, ?_⟩
    · simp only
      rw [List.drop_set_of_lt (by omega)]; exact hyd
    · simp only
      have h1 := mac_toNat t a[i] b[j] y[i + j] htl
      generalize t + (a[i].setWidth 64 * b[j].setWidth 64 + y[i + j].setWidth 64) = T at h1 ⊢
      have h2 := mac_value y (i + j) hjy T
      rw [h1] at h2
      rw [← Nat.add_assoc i j 1, value_take_succ b j hjb,
        Nat.mul_add (2 ^ (32 * i) * a[i].toNat), ← Nat.add_assoc, ← hyv]
      have e2 : 2 ^ (32 * i) * a[i].toNat * (2 ^ (32 * j) * b[j].toNat) = 2 ^ (32 * (i + j)) * (a[i].toNat * b[j].toNat) := by
        rw [show 32 * (i + j) = 32 * i + 32 * j by ring, pow_add]; ring
      rw [e2]
      rw [Nat.mul_add (2 ^ (32 * (i + j))), Nat.mul_add (2 ^ (32 * (i + j)))] at h2
      omega

/-- Schoolbook multiplication is exact when the result array has room for `2N` words. -/
theorem bnMul_spec (bits : Nat) (a b : List U32) (ha : a.length = bnN bits) (hb : b.length = bnN bits) (hr : 2 * bnN bits ≤ bnN (2 * bits)) :
    ∃ x, bnMul bits a b = .ok x ∧ x.length = bnN (2 * bits) ∧ value x = value a * value b := by
  rw [bnMul_eq]
  generalize bnN bits = N at *
  generalize bnN (2 * bits) = L at *
  have key : ∃ x, (loop N (List.replicate L 0#32) (fun x i => do
    let s ← loop N (x, 0#64) (mulInner a b i)
    wr s.1 (i + N) ((s.2 &&& 0xFFFFFFFF#64).setWidth 32)) : Out (List U32)) = .ok x ∧ (x.length = L ∧ value x = value (a.take N) * value b) := by
    refine loop_inv (fun i x => x.length = L ∧ value x = value (a.take i) * value b) ?_ ?_
    · simp [value_replicate_zero, value]
    · rintro i hi x ⟨hxl, hxv⟩
      have hia : i < a.length := by omega
      have hxlt : value x < 2 ^ (32 * (i + N)) := by
        have h1 := value_lt (a.take i)
        rw [List.length_take, Nat.min_eq_left (by omega)] at h1
        have h2 := value_lt b
        rw [hxv, show 32 * (i + N) = 32 * i + 32 * N by ring, pow_add, ← hb]
        exact Nat.mul_lt_mul'' h1 h2
      obtain ⟨⟨y, t⟩, e, hyl, htl, hyd, hyv⟩ := mulInner_spec a b x i N L hxl hia hb (by omega)
      have hiy : i + N < y.length := by simp only at hyl; omega
      simp only at hyl htl hyd hyv
      rw [e, loop_ok_bind, wr_ok _ hiy]
      refine ⟨_, rfl, by simpa using hyl, ?_⟩
      have hset := value_set y (i + N) ((t &&& 0xFFFFFFFF#64).setWidth 32) hiy
      rw [lo32, Nat.mod_eq_of_lt htl] at hset
      have hz : y[i + N].toNat = 0 := by
        have h1 : y[i + N]? = x[i + N]? := by
          have := congrArg (fun l => l[0]?) hyd
          simpa [List.getElem?_drop] using this
        rw [List.getElem?_eq_getElem hiy, List.getElem?_eq_getElem (by omega), Option.some_inj] at h1
        rw [h1, getElem_of_value, Nat.div_eq_of_lt hxlt]; rfl
      rw [hz, Nat.mul_zero, Nat.add_zero] at hset
      simp only
      rw [hset, hyv, hxv, value_take_succ a i hia, List.take_of_length_le (show b.length ≤ N by omega)]
      ring
  obtain ⟨x, h1, h2, h3⟩ := key
  exact ⟨x, h1, h2, by rw [h3, List.take_of_length_le (by omega)]⟩

end Verif.Proof
