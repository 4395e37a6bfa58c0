import Verif.Model.Simd
import Mathlib.Data.List.GetD
import Mathlib.Tactic.IntervalCases

/-! Lane lemmas for the vector type. -/

namespace Verif.Proof
open Verif.Model

theorem ok_bind {α β : Type} (x : α) (f : α → Out β) : ((Except.ok x : Out α) >>= f) = f x := rfl
theorem error_bind {α β : Type} (e : Fault) (f : α → Out β) : ((Except.error e : Out α) >>= f) = .error e := rfl

theorem dwordOf_pack (a b c d : U32) : dwordOf (packDwords a b c d) 0 = a ∧ dwordOf (packDwords a b c d) 1 = b ∧
    dwordOf (packDwords a b c d) 2 = c ∧ dwordOf (packDwords a b c d) 3 = d := by
  refine ⟨?_, ?_, ?_, ?_⟩ <;>
  · apply BitVec.eq_of_getLsbD_eq
    intro i hi
    simp only [dwordOf, packDwords, BitVec.getLsbD_extractLsb', BitVec.getLsbD_append, hi, decide_true, Bool.true_and]
    repeat' split
    all_goals first | omega | (congr 1; omega) | rfl

theorem dwordOf_xor (a b : M128) (i : Nat) : dwordOf (a ^^^ b) i = dwordOf a i ^^^ dwordOf b i := BitVec.extractLsb'_xor
theorem qwordOf_xor (a b : M128) (i : Nat) : qwordOf (a ^^^ b) i = qwordOf a i ^^^ qwordOf b i := BitVec.extractLsb'_xor
theorem byteOf_xor (a b : M128) (i : Nat) : byteOf (a ^^^ b) i = byteOf a i ^^^ byteOf b i := BitVec.extractLsb'_xor

theorem m128_ext_dword {a b : M128} (h : ∀ i, i < 4 → dwordOf a i = dwordOf b i) : a = b := by
  apply BitVec.eq_of_getLsbD_eq
  intro i hi
  have := congrArg (fun w => w.getLsbD (i % 32)) (h (i / 32) (by omega))
  have hm : i % 32 < 32 := by omega
  simp only [dwordOf, BitVec.getLsbD_extractLsb', hm, decide_true, Bool.true_and] at this
  rwa [show 32 * (i / 32) + i % 32 = i by omega] at this

theorem m128_ext_byte {a b : M128} (h : ∀ i, i < 16 → byteOf a i = byteOf b i) : a = b := by
  apply BitVec.eq_of_getLsbD_eq
  intro i hi
  have := congrArg (fun w => w.getLsbD (i % 8)) (h (i / 8) (by omega))
  have hm : i % 8 < 8 := by omega
  simp only [byteOf, BitVec.getLsbD_extractLsb', hm, decide_true, Bool.true_and] at this
  rwa [show 8 * (i / 8) + i % 8 = i by omega] at this

theorem byteOf_dword (v : M128) (i : Nat) : byteOf v i = (dwordOf v (i / 4)).extractLsb' (8 * (i % 4)) 8 := by
  apply BitVec.eq_of_getLsbD_eq
  intro j hj
  have : 8 * (i % 4) + j < 32 := by omega
  simp only [byteOf, dwordOf, BitVec.getLsbD_extractLsb', hj, this, decide_true, Bool.true_and]
  congr 1; omega

theorem packDword_byte (a b c d : Byte) : (packDword a b c d).extractLsb' 0 8 = a ∧ (packDword a b c d).extractLsb' 8 8 = b ∧
    (packDword a b c d).extractLsb' 16 8 = c ∧ (packDword a b c d).extractLsb' 24 8 = d := by
  refine ⟨?_, ?_, ?_, ?_⟩ <;>
  · apply BitVec.eq_of_getLsbD_eq
    intro i hi
    simp only [packDword, BitVec.getLsbD_extractLsb', BitVec.getLsbD_append, hi, decide_true, Bool.true_and]
    repeat' split
    all_goals first | omega | (congr 1; omega) | rfl

theorem packDword_unpack (w : U32) : packDword (w.extractLsb' 0 8) (w.extractLsb' 8 8) (w.extractLsb' 16 8) (w.extractLsb' 24 8) = w := by
  apply BitVec.eq_of_getLsbD_eq
  intro i hi
  simp only [packDword, BitVec.getLsbD_extractLsb', BitVec.getLsbD_append]
  repeat' split
  · rename_i h; simp only [h, decide_true, Bool.true_and]; congr 1; omega
  · rename_i h1 h2
    simp only [h2, decide_true, Bool.true_and]; congr 1; omega
  · rename_i h1 h2 h3
    simp only [h3, decide_true, Bool.true_and]; congr 1; omega
  · rename_i h1 h2 h3
    simp only [show i - 8 - 8 - 8 < 8 by omega, decide_true, Bool.true_and]; congr 1; omega

theorem byteOf_packBytes (f : Nat → Byte) {i : Nat} (hi : i < 16) : byteOf (packBytes f) i = f i := by
  rw [byteOf_dword]
  obtain ⟨h0, h1, h2, h3⟩ := dwordOf_pack (packDword (f 0) (f 1) (f 2) (f 3)) (packDword (f 4) (f 5) (f 6) (f 7))
    (packDword (f 8) (f 9) (f 10) (f 11)) (packDword (f 12) (f 13) (f 14) (f 15))
  have key : ∀ q, q < 4 → dwordOf (packBytes f) q = packDword (f (4 * q)) (f (4 * q + 1)) (f (4 * q + 2)) (f (4 * q + 3)) := by
    intro q hq
    match q, hq with
    | 0, _ => exact h0
    | 1, _ => exact h1
    | 2, _ => exact h2
    | 3, _ => exact h3
  have hi4 : i = 4 * (i / 4) + i % 4 := by omega
  rw [key _ (by omega)]
  obtain ⟨a0, a1, a2, a3⟩ := packDword_byte (f (4 * (i / 4))) (f (4 * (i / 4) + 1)) (f (4 * (i / 4) + 2)) (f (4 * (i / 4) + 3))
  have hm : i % 4 < 4 := by omega
  generalize hq : i / 4 = q at *
  generalize hr : i % 4 = r at *
  subst hi4
  match r, hm with
  | 0, _ => exact a0
  | 1, _ => exact a1
  | 2, _ => exact a2
  | 3, _ => exact a3

theorem packBytes_byteOf (v : M128) : packBytes (byteOf v) = v := m128_ext_byte (fun _ hi => byteOf_packBytes _ hi)

theorem packBytes_congr {f g : Nat → Byte} (h : ∀ i, i < 16 → f i = g i) : packBytes f = packBytes g :=
  m128_ext_byte (fun i hi => by rw [byteOf_packBytes _ hi, byteOf_packBytes _ hi, h i hi])

theorem storeu_length (v : M128) : (storeu v).length = 16 := rfl

theorem storeu_getD (v : M128) {i : Nat} (hi : i < 16) : (storeu v).getD i 0#8 = byteOf v i := by
  interval_cases i <;> rfl

theorem storeu_load {l : List Byte} (h : l.length = 16) : storeu (loadBytes l) = l := by
  apply List.ext_getElem (by rw [storeu_length, h])
  intro i h1 h2
  rw [← List.getD_eq_getElem _ 0#8 h1, ← List.getD_eq_getElem _ 0#8 h2, storeu_getD _ (by omega), loadBytes, byteOf_packBytes _ (by omega)]

theorem byteOf_load (l : List Byte) {i : Nat} (hi : i < 16) : byteOf (loadBytes l) i = l.getD i 0#8 := byteOf_packBytes _ hi

theorem load_storeu (v : M128) : loadBytes (storeu v) = v :=
  m128_ext_byte (fun i hi => by rw [byteOf_load _ hi, storeu_getD _ hi])

theorem storeu_inj {a b : M128} (h : storeu a = storeu b) : a = b := by rw [← load_storeu a, h, load_storeu]

theorem load_take (l : List Byte) : loadBytes (l.take 16) = loadBytes l :=
  m128_ext_byte (fun i hi => by
    rw [byteOf_load _ hi, byteOf_load _ hi, List.getD_eq_getElem?_getD, List.getD_eq_getElem?_getD, List.getElem?_take_of_lt hi])

theorem storeu_xor (a b : M128) : storeu (a ^^^ b) = List.zipWith (· ^^^ ·) (storeu a) (storeu b) := by
  simp only [storeu, byteOf_xor, List.zipWith_cons_cons, List.zipWith_nil_left]

/-- 32-bit lanes of a register shifted left by `m` lanes. -/
theorem dwordOf_slli (v : M128) (m i : Nat) (hi : i < 4) : dwordOf (slliSi v (4 * m)) i = if i < m then 0#32 else dwordOf v (i - m) := by
  apply BitVec.eq_of_getLsbD_eq
  intro j hj
  simp only [slliSi, dwordOf, BitVec.getLsbD_extractLsb', BitVec.getLsbD_shiftLeft, hj, decide_true, Bool.true_and]
  split
  · have : 32 * i + j < 8 * (4 * m) := by omega
    simp [this]
  · have h1 : ¬ 32 * i + j < 8 * (4 * m) := by omega
    have h2 : 32 * i + j < 128 := by omega
    simp only [h1, h2, decide_true, decide_false, Bool.not_false, Bool.true_and, BitVec.getLsbD_extractLsb', hj]
    congr 1; omega

theorem dwordOf_srli (v : M128) (m i : Nat) (hi : i < 4) : dwordOf (srliSi v (4 * m)) i = if i + m < 4 then dwordOf v (i + m) else 0#32 := by
  apply BitVec.eq_of_getLsbD_eq
  intro j hj
  simp only [srliSi, dwordOf, BitVec.getLsbD_extractLsb', BitVec.getLsbD_ushiftRight, hj, decide_true, Bool.true_and]
  split
  · simp only [BitVec.getLsbD_extractLsb', hj, decide_true, Bool.true_and]
    congr 1; omega
  · rw [BitVec.getLsbD_of_ge _ _ (by omega)]; simp

end Verif.Proof
