import Verif.Proof.KeccakInj
import Verif.Proof.Sha3
import Mathlib.Data.Fintype.Vector
import Mathlib.Data.Fintype.Card
import Mathlib.Data.FinEnum

/-!
# C112: the permutation behind SHA-3 loses nothing
-/

namespace Verif.Props
open Verif.Model Verif.Spec Verif.Proof Verif.Proof.KeccakInj

/-- The array of bits of a state of 25 lanes. -/
def stateBits (s : List U64) : Keccak.StateArray := fun x y z => (s.getD (5 * y + x) 0#64).getLsbD z

theorem ra_bits {s : List U64} (h : s.length = 25) : RA s (stateBits s) := ⟨h, fun _ _ _ _ _ _ => rfl⟩

theorem of_same {s t : List U64} (hs : s.length = 25) (ht : t.length = 25) (h : Same (stateBits s) (stateBits t)) : s = t := by
  apply List.ext_getElem (by omega)
  intro i h1 h2
  apply BitVec.eq_of_getLsbD_eq
  intro z hz
  have := h (i % 5) (by omega) (i / 5) (by omega) z hz
  simp only [stateBits] at this
  rw [show 5 * (i / 5) + i % 5 = i by omega, List.getD_eq_getElem _ _ h1, List.getD_eq_getElem _ _ h2] at this
  exact this

theorem process_length {s : List U64} (h : s.length = 25) : (sha3Process s).length = 25 := (ra_process (ra_bits h)).len

theorem process_inj {s t : List U64} (hs : s.length = 25) (ht : t.length = 25) (h : sha3Process s = sha3Process t) : s = t := by
  have h1 := ra_process (ra_bits hs)
  have h2 := ra_process (ra_bits ht)
  apply of_same hs ht
  apply rounds_inj (List.range 24)
  intro x hx y hy z hz
  rw [← h1.bit x hx y hy z hz, ← h2.bit x hx y hy z hz, h]

theorem onto_of_inj (f : List U64 → List U64) (hl : ∀ s, s.length = 25 → (f s).length = 25)
    (hi : ∀ s t, s.length = 25 → t.length = 25 → f s = f t → s = t) (t : List U64) (ht : t.length = 25) : ∃ s, s.length = 25 ∧ f s = t := by
  let g : List.Vector U64 25 → List.Vector U64 25 := fun s => ⟨f s.1, hl _ s.2⟩
  have hg : Function.Injective g := fun a b hab => Subtype.ext (hi _ _ a.2 b.2 (congrArg Subtype.val hab))
  obtain ⟨s, hs⟩ := (Finite.injective_iff_surjective.mp hg) ⟨t, ht⟩
  exact ⟨s.1, s.2, congrArg Subtype.val hs⟩

attribute [local irreducible] sha3Process

/-- **C112** (`processChunk`): every state of 25 lanes is the result of exactly one. -/
theorem C112_permutation (t : List U64) (ht : t.length = 25) : ∃! s : List U64, s.length = 25 ∧ sha3Process s = t := by
  obtain ⟨s, hs, e⟩ := onto_of_inj sha3Process (fun _ h => process_length h) (fun _ _ hs ht h => process_inj hs ht h) t ht
  exact ⟨s, ⟨hs, e⟩, fun u hu => process_inj hu.1 hs (hu.2.trans e.symm)⟩

/-- A case that meets the hypotheses of `C112_permutation`. -/
example := C112_permutation (List.replicate 25 3#64) rfl

theorem xorAt_length (s : List U64) (i : Nat) (v : U64) : (xorAt s i v).length = s.length := by rw [xorAt, List.length_set]

theorem xorAt_inj {s t : List U64} (h : s.length = t.length) (i : Nat) (v : U64) (e : xorAt s i v = xorAt t i v) : s = t := by
  apply List.ext_getElem h
  intro j h1 h2
  have := congrArg (fun l => l.getD j 0#64) e
  simp only [xorAt, getD_set] at this
  rw [← List.getD_eq_getElem _ 0#64 h1, ← List.getD_eq_getElem _ 0#64 h2]
  by_cases hij : i = j
  · subst hij
    rw [if_pos ⟨rfl, h1⟩, if_pos ⟨rfl, h2⟩] at this
    exact (BitVec.xor_left_inj v).mp this
  · rwa [if_neg (by omega), if_neg (by omega)] at this

theorem addByte_eq (R o : Nat) (s : List U64) (c : Byte) : sha3AddByte R (s, o) c =
    if o + 1 = R then (sha3Process (xorAt s (o / 8) (c.setWidth 64 <<< ((o % 8) * 8))), 0)
    else (xorAt s (o / 8) (c.setWidth 64 <<< ((o % 8) * 8)), o + 1) := rfl

theorem addByte_length {R o : Nat} {s : List U64} (c : Byte) (h : s.length = 25) : (sha3AddByte R (s, o) c).1.length = 25 := by
  rw [addByte_eq]
  split
  · exact process_length (by rw [xorAt_length]; exact h)
  · show (xorAt _ _ _).length = 25
    rw [xorAt_length]; exact h

theorem addByte_snd (R o : Nat) (s t : List U64) (c d : Byte) : (sha3AddByte R (s, o) c).2 = (sha3AddByte R (t, o) d).2 := by
  rw [addByte_eq, addByte_eq]
  split <;> rfl

theorem addByte_inj {R o : Nat} {s t : List U64} (c : Byte) (hs : s.length = 25) (ht : t.length = 25)
    (h : (sha3AddByte R (s, o) c).1 = (sha3AddByte R (t, o) c).1) : s = t := by
  rw [addByte_eq, addByte_eq] at h
  split at h
  · exact xorAt_inj (by omega) _ _ (process_inj (by rw [xorAt_length]; exact hs) (by rw [xorAt_length]; exact ht) h)
  · exact xorAt_inj (by omega) _ _ h

theorem addBytes_inj (R : Nat) : ∀ (d : List Byte) (o : Nat) {s t : List U64}, s.length = 25 → t.length = 25 →
    (d.foldl (sha3AddByte R) (s, o)).1 = (d.foldl (sha3AddByte R) (t, o)).1 → s = t
  | [], _, _, _, _, _, h => h
  | c :: d, o, s, t, hs, ht, h => by
    rw [List.foldl_cons, List.foldl_cons] at h
    apply addByte_inj (R := R) (o := o) c hs ht
    apply addBytes_inj R d (sha3AddByte R (s, o) c).2 (addByte_length c hs) (addByte_length c ht)
    have e := addByte_snd R o s t c c
    rw [show (sha3AddByte R (s, o) c) = ((sha3AddByte R (s, o) c).1, (sha3AddByte R (s, o) c).2) from rfl,
      show (sha3AddByte R (t, o) c) = ((sha3AddByte R (t, o) c).1, (sha3AddByte R (s, o) c).2) from by rw [e]] at h
    exact h

/-- **C112** (`add`): objects that differ still differ after the same bytes have been added to both. -/
theorem C112_add (size : Nat) (st st' : Sha3State) (data : List Byte) (hs : st.s.length = 25) (hs' : st'.s.length = 25)
    (h : st.add size data = st'.add size data) : st = st' := by
  have h2 : st.msglength = st'.msglength := by
    have := congrArg Sha3State.msglength h
    simp only [Sha3State.add] at this
    exact (BitVec.add_left_inj _).mp this
  have h1 := congrArg Sha3State.s h
  simp only [Sha3State.add, h2] at h1
  have := addBytes_inj _ data _ hs hs' h1
  cases st
  cases st'
  simp_all

/-- A case that meets the hypotheses of `C112_add`. -/
example := C112_add 256 ⟨List.replicate 25 3#64, 5⟩ ⟨List.replicate 25 3#64, 5⟩ [1#8, 2#8] rfl rfl rfl

/-- Adding bytes without reaching the end of the block. -/
theorem addBytes_rs (R : Nat) (hR : R ≤ 200) : ∀ (d : List Byte) (o : Nat) {s : List U64} {S : Keccak.BitString}, RS s S → o + d.length < R →
    RS (d.foldl (sha3AddByte R) (s, o)).1 (fun j => S j ^^ (if o ≤ j / 8 then byteBit d (j - 8 * o) else false)) ∧
      (d.foldl (sha3AddByte R) (s, o)).2 = o + d.length
  | [], o, s, S, h, _ => ⟨rs_congr h (fun j => by simp [byteBit]), rfl⟩
  | c :: d, o, s, S, h, hl => by
    rw [List.length_cons] at hl
    have e : sha3AddByte R (s, o) c = (xorAt s (o / 8) (c.setWidth 64 <<< ((o % 8) * 8)), o + 1) := by
      rw [addByte_eq, if_neg (by omega)]
    obtain ⟨h1, h2⟩ := addBytes_rs R hR d (o + 1) (rs_xorByte h (o := o) (by omega) c) (by omega)
    rw [List.foldl_cons, e]
    refine ⟨rs_congr h1 ?_, by rw [h2, List.length_cons]; omega⟩
    intro j
    rw [Bool.xor_assoc]
    congr 1
    rcases Nat.lt_trichotomy (j / 8) o with hj | hj | hj
    · rw [if_neg (by omega), if_neg (by omega), if_neg (by omega)]; rfl
    · rw [if_pos hj, if_neg (by omega), if_pos (by omega), Bool.xor_false, byteBit, show (j - 8 * o) / 8 = 0 by omega, show (j - 8 * o) % 8 = j % 8 by omega]
      rfl
    · rw [if_neg (by omega), if_pos (by omega), if_pos (by omega), Bool.false_xor, byteBit, byteBit,
        show (j - 8 * o) / 8 = (j - 8 * (o + 1)) / 8 + 1 by omega, show (j - 8 * o) % 8 = (j - 8 * (o + 1)) % 8 by omega, List.getD_cons_succ]

theorem rs_of_length {s : List U64} (h : s.length = 25) : RS s (fun j => (s.getD (j / 64) 0#64).getLsbD (j % 64)) := ⟨h, fun _ _ => rfl⟩

/-- Different bytes that do not fill the block give different states. -/
theorem addBytes_data (R : Nat) (hR : R ≤ 200) (d d' : List Byte) (o : Nat) {s : List U64} (hs : s.length = 25) (hl : d.length = d'.length)
    (hd : o + d.length < R) (h : (d.foldl (sha3AddByte R) (s, o)).1 = (d'.foldl (sha3AddByte R) (s, o)).1) : d = d' := by
  obtain ⟨h1, -⟩ := addBytes_rs R hR d o (rs_of_length hs) hd
  obtain ⟨h2, -⟩ := addBytes_rs R hR d' o (rs_of_length hs) (by omega)
  rw [h] at h1
  apply List.ext_getElem hl
  intro i hi hi'
  apply BitVec.eq_of_getLsbD_eq
  intro b hb
  have hj : 8 * (o + i) + b < 1600 := by omega
  have := (h1.bit _ hj).symm.trans (h2.bit _ hj)
  rw [if_pos (by omega), if_pos (by omega), Bool.xor_right_inj, byteBit, byteBit, show (8 * (o + i) + b - 8 * o) / 8 = i by omega,
    show (8 * (o + i) + b - 8 * o) % 8 = b by omega, List.getD_eq_getElem _ _ hi, List.getD_eq_getElem _ _ hi'] at this
  exact this

/-- **C112** (data): different bytes of the same length that fit in the rest of the block leave different states behind, also when they fill it. -/
theorem C112_block (size : Nat) (hR : 0 < sha3Rate size) (st : Sha3State) (hs : st.s.length = 25) (d d' : List Byte) (hl : d.length = d'.length)
    (hd : st.msglength.toNat % sha3Rate size + d.length ≤ sha3Rate size) (h : st.add size d = st.add size d') : d = d' := by
  have hR2 : sha3Rate size ≤ 200 := by unfold sha3Rate; omega
  have h1 := congrArg Sha3State.s h
  simp only [Sha3State.add] at h1
  generalize st.msglength.toNat % sha3Rate size = o at hd h1
  by_cases hlt : o + d.length < sha3Rate size
  · exact addBytes_data _ hR2 d d' o hs hl hlt h1
  · rcases List.eq_nil_or_concat d with rfl | ⟨i, c, rfl⟩
    · exact (List.length_eq_zero_iff.mp hl.symm).symm
    rcases List.eq_nil_or_concat d' with rfl | ⟨i', c', rfl⟩
    · simp at hl
    simp only [List.concat_eq_append, List.length_append, List.length_singleton] at hl hd hlt h1 ⊢
    obtain ⟨a1, a2⟩ := addBytes_rs (sha3Rate size) hR2 i o (rs_of_length hs) (by omega)
    obtain ⟨b1, b2⟩ := addBytes_rs (sha3Rate size) hR2 i' o (rs_of_length hs) (by omega)
    rw [List.foldl_append, List.foldl_append, List.foldl_cons, List.foldl_cons, List.foldl_nil, List.foldl_nil] at h1
    generalize i.foldl (sha3AddByte (sha3Rate size)) (st.s, o) = p at a1 a2 h1
    generalize i'.foldl (sha3AddByte (sha3Rate size)) (st.s, o) = q at b1 b2 h1
    obtain ⟨p, x⟩ := p
    obtain ⟨q, y⟩ := q
    simp only at a1 a2 b1 b2
    subst a2 b2
    rw [addByte_eq, addByte_eq, if_pos (by omega), if_pos (by omega)] at h1
    have h2 := process_inj (by rw [xorAt_length]; exact a1.len) (by rw [xorAt_length]; exact b1.len) h1
    have a3 := rs_xorByte a1 (o := o + i.length) (by omega) c
    have b3 := rs_xorByte b1 (o := o + i'.length) (by omega) c'
    rw [h2] at a3
    have bits : ∀ n, n < i.length + 1 → ∀ b < 8, byteBit (i ++ [c]) (8 * n + b) = byteBit (i' ++ [c']) (8 * n + b) := by
      intro n hn b hb
      have hj : 8 * (o + n) + b < 1600 := by omega
      have := (a3.bit _ hj).symm.trans (b3.bit _ hj)
      have e0 : o ≤ (8 * (o + n) + b) / 8 := by omega
      simp only [e0, if_true] at this
      rw [Bool.xor_assoc, Bool.xor_assoc, Bool.xor_right_inj] at this
      rw [byteBit_append, byteBit_append]
      have e1 : 8 * (o + n) + b - 8 * o = 8 * n + b := by omega
      have e2 : (8 * (o + n) + b) % 8 = (8 * n + b) % 8 := by omega
      rw [e1, e2] at this
      refine Eq.trans ?_ (this.trans ?_)
      · congr 2; apply propext; omega
      · congr 2; apply propext; omega
    apply List.ext_getElem (by simp [hl])
    intro n hi hi'
    apply BitVec.eq_of_getLsbD_eq
    intro b hb
    have := bits n (by simpa using hi) b hb
    rwa [byteBit, byteBit, show (8 * n + b) / 8 = n by omega, show (8 * n + b) % 8 = b by omega, List.getD_eq_getElem _ _ hi,
      List.getD_eq_getElem _ _ hi'] at this

/-- The hypotheses hold for a new object of each size and two messages of a full block. -/
example : sha3Rate 256 = 136 ∧ (0 < sha3Rate 256) ∧ Sha3State.new.s.length = 25 ∧
    (List.replicate 136 1#8).length = (List.replicate 136 2#8).length ∧
    Sha3State.new.msglength.toNat % sha3Rate 256 + (List.replicate 136 1#8).length ≤ sha3Rate 256 ∧
    List.replicate 136 1#8 ≠ List.replicate 136 2#8 := by decide +kernel

/-- They therefore differ after the permutation. -/
example : Sha3State.new.add 256 (List.replicate 136 1#8) ≠ Sha3State.new.add 256 (List.replicate 136 2#8) :=
  fun h => absurd (C112_block 256 (by decide) _ (by decide) _ _ (by rw [List.length_replicate, List.length_replicate]) (by decide +kernel) h) (by decide +kernel)

end Verif.Props
