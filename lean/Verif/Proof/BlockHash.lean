import Verif.Model.BlockHash
import Verif.Spec.BlockHash
import Mathlib.Tactic.IntervalCases

/-! Buffer invariant of the streaming hashes. -/

namespace Verif.Proof
open Verif.Model Verif.Spec

variable {A : BlockAlg}

theorem blocks_lt {α : Type} {B : Nat} {m : List α} (h : m.length < B) : blocks B m = [] := by
  rw [blocks, if_neg (by omega)]

theorem blocks_cons {α : Type} {B : Nat} {m : List α} (hB : 0 < B) (h : B ≤ m.length) :
    blocks B m = m.take B :: blocks B (m.drop B) := by
  rw [blocks, if_pos ⟨hB, h⟩]

theorem blocks_append {α : Type} {B : Nat} (hB : 0 < B) : ∀ (m d : List α), B ∣ m.length →
    blocks B (m ++ d) = blocks B m ++ blocks B d := by
  intro m
  induction hm : m.length using Nat.strong_induction_on generalizing m with
  | _ n ih =>
    intro d hd
    by_cases h0 : m.length = 0
    · have : m = [] := List.length_eq_zero_iff.mp h0
      subst this
      rw [blocks_lt (m := []) (by simpa using hB)]; simp
    · have hle : B ≤ m.length := Nat.le_of_dvd (by omega) (hm ▸ hd)
      rw [blocks_cons hB (by simp; omega), blocks_cons hB hle]
      rw [List.take_append_of_le_length hle, List.drop_append_of_le_length hle]
      rw [ih (m.drop B).length (by simp; omega) (m.drop B) rfl d]
      · rfl
      · simp only [List.length_drop]
        exact Nat.dvd_sub (hm ▸ hd) (dvd_refl _)

theorem blocks_single {α : Type} {B : Nat} {b : List α} (hB : 0 < B) (h : b.length = B) : blocks B b = [b] := by
  rw [blocks_cons hB (by omega), List.take_of_length_le (by omega), List.drop_of_length_le (by omega),
    blocks_lt (m := []) (by simpa using hB)]

/-- The invariant: the object has absorbed exactly the bytes `m`. -/
structure Absorbed (s : BlockState A) (m : List Byte) : Prop where
  len : s.msglength = BitVec.ofNat 64 m.length
  chunkLen : s.chunk.length = A.B
  h : s.h = iterate A.compress A.init (blocks A.B m)
  tail : s.chunk.take (m.length % A.B) = m.drop (m.length / A.B * A.B)

theorem absorbed_new {junk : List Byte} (hj : junk.length = A.B) :
    Absorbed (BlockState.new A junk) [] := by
  refine ⟨rfl, hj, ?_, ?_⟩
  · rw [blocks_lt (by simpa using A.Bpos)]; rfl
  · simp

/-- Invariant of the inner loop, where the length counter has already been advanced. -/
theorem addLoop_spec : ∀ (rest : List Byte) (s : BlockState A) (m : List Byte),
    A.B ∣ m.length → s.chunk.length = A.B → s.h = iterate A.compress A.init (blocks A.B m) →
    (s.addLoop rest).msglength = s.msglength ∧ (s.addLoop rest).chunk.length = A.B ∧
    (s.addLoop rest).h = iterate A.compress A.init (blocks A.B (m ++ rest)) ∧
    (s.addLoop rest).chunk.take (rest.length % A.B) = rest.drop (rest.length / A.B * A.B) := by
  intro rest
  induction hr : rest.length using Nat.strong_induction_on generalizing rest with
  | _ n ih =>
    intro s m hm hc hh
    have hB := A.Bpos
    rw [BlockState.addLoop]
    by_cases hle : A.B ≤ rest.length
    · rw [if_pos hle]
      have htl : (rest.take A.B).length = A.B := by simp; omega
      have hov : overwrite s.chunk 0 (rest.take A.B) = rest.take A.B := by
        unfold overwrite
        rw [List.drop_of_length_le (by rw [htl, hc]; omega)]; simp
      have := ih (rest.drop A.B).length (by simp; omega) (rest.drop A.B) rfl
        (BlockState.processChunk { s with chunk := overwrite s.chunk 0 (rest.take A.B) }) (m ++ rest.take A.B)
        (by rw [List.length_append, htl]; exact Nat.dvd_add hm (dvd_refl _))
        (by simp [BlockState.processChunk, hov]; omega)
        (by
          simp only [BlockState.processChunk, hov]
          rw [blocks_append hB _ _ hm, blocks_single hB htl]
          simp only [iterate, List.foldl_append, List.foldl_cons, List.foldl_nil]
          rw [hh]; rfl)
      obtain ⟨h1, h2, h3, h4⟩ := this
      refine ⟨h1, h2, ?_, ?_⟩
      · rw [h3, List.append_assoc, List.take_append_drop]
      · subst hr
        rw [List.length_drop] at h4
        have e1 : (rest.length - A.B) % A.B = rest.length % A.B := by
          rw [Nat.mod_eq_sub_mod hle]
        have e2 : A.B + (rest.length - A.B) / A.B * A.B = rest.length / A.B * A.B := by
          have : rest.length / A.B = (rest.length - A.B) / A.B + 1 := by
            rw [Nat.div_eq_sub_div hB hle]
          rw [this]; ring
        rw [e1, List.drop_drop, e2] at h4
        exact h4
    · rw [if_neg hle]
      have hlt : rest.length < A.B := by omega
      have hbl : blocks A.B (m ++ rest) = blocks A.B m := by
        rw [blocks_append hB _ _ hm, blocks_lt hlt, List.append_nil]
      subst hr
      rw [Nat.mod_eq_of_lt hlt, Nat.div_eq_of_lt hlt]
      by_cases h0 : rest.length ≠ 0
      · rw [if_pos h0]
        refine ⟨rfl, ?_, by rw [hbl]; exact hh, ?_⟩
        · simp only; rw [overwrite_length (by omega)]; exact hc
        · have := overwrite_take (dst := s.chunk) (off := 0) (src := rest) (by omega)
          simpa using this
      · rw [if_neg h0]
        have : rest = [] := List.length_eq_zero_iff.mp (by omega)
        subst this
        exact ⟨rfl, hc, by rw [hbl]; exact hh, by simp⟩

theorem absorbed_add (hB : A.B ∣ 2 ^ 64) {s : BlockState A} {m : List Byte} (hs : Absorbed s m) (d : List Byte) :
    Absorbed (s.add d) (m ++ d) := by
  obtain ⟨hlen, hc, hh, ht⟩ := hs
  have hB0 := A.Bpos
  have hoff : s.msglength.toNat % A.B = m.length % A.B := by
    rw [hlen, BitVec.toNat_ofNat, Nat.mod_mod_of_dvd _ hB]
  have hdm := Nat.div_add_mod m.length A.B
  have hmod := Nat.mod_lt m.length hB0
  have hpre : A.B ∣ (m.take (m.length / A.B * A.B)).length := by
    rw [List.length_take, Nat.min_eq_left (by rw [Nat.mul_comm]; omega)]
    exact Dvd.intro_left _ rfl
  have hml : m.take (m.length / A.B * A.B) ++ m.drop (m.length / A.B * A.B) = m := List.take_append_drop _ _
  have hdl : (m.drop (m.length / A.B * A.B)).length = m.length % A.B := by
    rw [List.length_drop, Nat.mul_comm]; omega
  have hbm : blocks A.B m = blocks A.B (m.take (m.length / A.B * A.B)) := by
    conv_lhs => rw [← hml]
    rw [blocks_append hB0 _ _ hpre, blocks_lt (m := m.drop _) (by omega), List.append_nil]
  have hnewlen : s.msglength + BitVec.ofNat 64 d.length = BitVec.ofNat 64 (m ++ d).length := by
    rw [hlen, List.length_append, BitVec.ofNat_add]
  unfold BlockState.add
  simp only [hoff]
  by_cases hz : m.length % A.B = 0
  · rw [if_neg (by omega)]
    have hmdvd : A.B ∣ m.length := Nat.dvd_of_mod_eq_zero hz
    obtain ⟨h1, h2, h3, h4⟩ := addLoop_spec d { s with msglength := s.msglength + BitVec.ofNat 64 d.length } m
      hmdvd hc hh
    refine ⟨by rw [h1]; exact hnewlen, h2, h3, ?_⟩
    obtain ⟨k, hk⟩ := hmdvd
    rw [List.length_append]
    rw [show (m.length + d.length) % A.B = d.length % A.B by rw [hk, Nat.mul_add_mod]]
    rw [show (m.length + d.length) / A.B * A.B = m.length + d.length / A.B * A.B by
      rw [hk, Nat.mul_add_div hB0]; ring]
    rw [h4, List.drop_append, List.drop_of_length_le (l := m) (by omega), Nat.add_sub_cancel_left]; rfl
  · rw [if_pos hz]
    by_cases hfit : m.length % A.B + min d.length (A.B - m.length % A.B) ≠ A.B
    · rw [if_pos hfit]
      have hlt : m.length % A.B + d.length < A.B := by omega
      rw [show min d.length (A.B - m.length % A.B) = d.length by omega, List.take_length]
      refine ⟨hnewlen, ?_, ?_, ?_⟩
      · simp only; rw [overwrite_length (by omega)]; exact hc
      · simp only
        rw [hh, hbm]
        conv_rhs => rw [← hml, List.append_assoc]
        rw [blocks_append hB0 _ _ hpre, blocks_lt (m := m.drop _ ++ d) (by rw [List.length_append]; omega),
          List.append_nil]
      · simp only
        have hq : (m ++ d).length / A.B = m.length / A.B := by
          rw [List.length_append]
          conv_lhs => rw [← hdm, Nat.add_assoc, Nat.mul_add_div hB0, Nat.div_eq_of_lt hlt]
          rfl
        have hr : (m ++ d).length % A.B = m.length % A.B + d.length := by
          rw [List.length_append]
          conv_lhs => rw [← hdm, Nat.add_assoc, Nat.mul_add_mod, Nat.mod_eq_of_lt hlt]
        rw [hq, hr, overwrite_take (by omega), ht]
        rw [List.drop_append_of_le_length (by rw [Nat.mul_comm]; omega)]
    · rw [if_neg hfit]
      have hge : A.B - m.length % A.B ≤ d.length := by omega
      have hcn : min d.length (A.B - m.length % A.B) = A.B - m.length % A.B := by omega
      rw [hcn]
      generalize hcN : A.B - m.length % A.B = cN at *
      have htk : (d.take cN).length = cN := by simp; omega
      have hov : overwrite s.chunk (m.length % A.B) (d.take cN) = m.drop (m.length / A.B * A.B) ++ d.take cN := by
        have h1 := overwrite_take (dst := s.chunk) (off := m.length % A.B) (src := d.take cN) (by omega)
        rw [List.take_of_length_le (by rw [overwrite_length (by omega)]; omega)] at h1
        rw [h1, ht]
      obtain ⟨h1, h2, h3, h4⟩ := addLoop_spec (d.drop cN)
        (BlockState.processChunk { s with
          msglength := s.msglength + BitVec.ofNat 64 d.length,
          chunk := overwrite s.chunk (m.length % A.B) (d.take cN) }) (m ++ d.take cN)
        (by
          rw [List.length_append, htk, ← hdm, Nat.add_assoc]
          exact Nat.dvd_add (Nat.dvd_mul_right _ _) (by rw [show m.length % A.B + cN = A.B by omega]))
        (by simp only [BlockState.processChunk]; rw [overwrite_length (by omega)]; exact hc)
        (by
          simp only [BlockState.processChunk]
          rw [hov, hh, hbm]
          conv_rhs => rw [← hml, List.append_assoc]
          rw [blocks_append hB0 _ _ hpre]
          have hl : (m.drop (m.length / A.B * A.B) ++ d.take cN).length = A.B := by
            rw [List.length_append]; omega
          rw [blocks_single hB0 hl]
          simp only [iterate, List.foldl_append, List.foldl_cons, List.foldl_nil])
      refine ⟨by rw [h1]; exact hnewlen, h2, ?_, ?_⟩
      · rw [h3, List.append_assoc, List.take_append_drop]
      · rw [List.length_drop] at h4
        have hsum : (m ++ d).length = A.B * (m.length / A.B + 1) + (d.length - cN) := by
          rw [List.length_append, Nat.mul_add]; omega
        have hr : (m ++ d).length % A.B = (d.length - cN) % A.B := by
          rw [hsum, Nat.mul_add_mod]
        have hq : (m ++ d).length / A.B * A.B = m.length + cN + (d.length - cN) / A.B * A.B := by
          rw [hsum, Nat.mul_add_div hB0, Nat.add_mul, Nat.add_mul, Nat.one_mul]
          have : m.length / A.B * A.B + A.B = m.length + cN := by rw [Nat.mul_comm]; omega
          omega
        rw [hr, hq, h4, List.drop_drop, List.drop_append, List.drop_of_length_le (l := m) (by omega)]
        rw [List.nil_append]
        congr 1
        omega

/-- Adding a list of chunks one by one. -/
theorem absorbed_foldl (hB : A.B ∣ 2 ^ 64) : ∀ (cs : List (List Byte)) {s : BlockState A} {m : List Byte},
    Absorbed s m → Absorbed (cs.foldl BlockState.add s) (m ++ cs.flatten) := by
  intro cs
  induction cs with
  | nil => intro s m h; simpa using h
  | cons c cs ih =>
    intro s m h
    have := ih (absorbed_add hB h c)
    simpa [List.append_assoc] using this

/-- The length field of the standards, in the byte order of the algorithm. -/
def fieldOf (A : BlockAlg) : Nat → List Byte := if A.littleEndian then leBytes A.L else beBytes A.L

theorem reverse_map_range {α : Type} (f : Nat → α) (n : Nat) :
    ((List.range n).map f).reverse = (List.range n).map (fun i => f (n - 1 - i)) := by
  apply List.ext_getElem
  · simp
  · intro i h1 h2
    simp at h1
    simp [List.getElem_reverse]

theorem lenField_eq {n : Nat} (h : A.L ≤ 8 ∨ n < 2 ^ 61) : lenField A (BitVec.ofNat 64 n) = fieldOf A (8 * n) := by
  have key : ∀ i < A.L, ((BitVec.ofNat 64 n * 8) >>> (8 * i)).setWidth 8 = BitVec.ofNat 8 (8 * n / 256 ^ i) := by
    intro i hi
    apply BitVec.eq_of_toNat_eq
    rw [BitVec.toNat_setWidth, BitVec.toNat_ushiftRight, BitVec.toNat_mul, BitVec.toNat_ofNat, BitVec.toNat_ofNat,
      Nat.shiftRight_eq_div_pow, show BitVec.toNat (8 : BitVec 64) = 8 by rfl,
      show (2:Nat) ^ (8 * i) = 256 ^ i by rw [pow_mul, show (2:Nat) ^ 8 = 256 by rfl]]
    rw [show (n % 2 ^ 64 * 8) % 2 ^ 64 = 8 * n % 2 ^ 64 by omega]
    rcases h with h | h
    · have h8 : i < 8 := by omega
      interval_cases i <;> omega
    · rw [Nat.mod_eq_of_lt (by omega : 8 * n < 2 ^ 64)]
  unfold lenField fieldOf
  have key2 : (List.range A.L).map (fun i => ((BitVec.ofNat 64 n * 8) >>> (8 * i)).setWidth 8) = leBytes A.L (8 * n) := by
    unfold leBytes
    exact List.map_congr_left (fun i hi => key i (List.mem_range.mp hi))
  simp only [key2]
  split
  · rfl
  · rw [leBytes, reverse_map_range]; rfl

theorem fieldOf_length (n : Nat) : (fieldOf A n).length = A.L := by
  unfold fieldOf; split <;> simp [leBytes, beBytes]

/-- Reading the digest of an object that has absorbed `m`: no bound on the length, the length field as the code computes
it. -/
theorem data_eq' (hB : A.B ∣ 2 ^ 64) {s : BlockState A} {m : List Byte} (hs : Absorbed s m) :
    s.data = A.out (iterate A.compress A.init (blocks A.B
      (pad A.B A.L (fun _ => lenField A (BitVec.ofNat 64 m.length)) m))) := by
  have hB0 := A.Bpos
  unfold BlockState.data
  simp only
  have hp : (s.msglength + BitVec.ofNat 64 A.L).toNat % A.B = (m.length + A.L) % A.B := by
    rw [hs.len, ← BitVec.ofNat_add, BitVec.toNat_ofNat, Nat.mod_mod_of_dvd _ hB]
  rw [hp, hs.len]
  have hlt := Nat.mod_lt (m.length + A.L) hB0
  have hz : (0x80#8 :: List.replicate A.B 0#8).take (A.B - (m.length + A.L) % A.B) =
      [0x80#8] ++ List.replicate ((A.B - (m.length + 1 + A.L) % A.B) % A.B) 0#8 := by
    obtain ⟨k, hk⟩ : ∃ k, A.B - (m.length + A.L) % A.B = k + 1 := ⟨A.B - (m.length + A.L) % A.B - 1, by omega⟩
    rw [hk, List.take_succ_cons, List.take_replicate]
    have : (A.B - (m.length + 1 + A.L) % A.B) % A.B = k := by
      rw [show m.length + 1 + A.L = (m.length + A.L) + 1 by omega, Nat.add_mod]
      by_cases h1 : A.B = 1
      · rw [h1] at hk hlt ⊢; rw [Nat.mod_one] at *; omega
      · rw [Nat.mod_eq_of_lt (by omega : 1 < A.B)]
        by_cases h2 : (m.length + A.L) % A.B + 1 = A.B
        · rw [h2, Nat.mod_self, Nat.sub_zero, Nat.mod_self]; omega
        · rw [Nat.mod_eq_of_lt (by omega : (m.length + A.L) % A.B + 1 < A.B), Nat.mod_eq_of_lt (by omega)]; omega
    rw [this, Nat.min_eq_left (by omega)]; rfl
  rw [hz]
  have := absorbed_add hB (absorbed_add hB hs
    ([0x80#8] ++ List.replicate ((A.B - (m.length + 1 + A.L) % A.B) % A.B) 0#8)) (lenField A (BitVec.ofNat 64 m.length))
  rw [this.h, pad]
  simp only [List.append_assoc]

/-- Reading the digest of an object that has absorbed `m`. -/
theorem data_eq (hB : A.B ∣ 2 ^ 64) {s : BlockState A} {m : List Byte} (hs : Absorbed s m)
    (hm : A.L ≤ 8 ∨ m.length < 2 ^ 61) :
    s.data = A.out (iterate A.compress A.init (blocks A.B (pad A.B A.L (fieldOf A) m))) := by
  rw [data_eq' hB hs, lenField_eq hm]
  rfl

end Verif.Proof
