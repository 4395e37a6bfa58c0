import Verif.Model.Crc
import Verif.Spec.Crc

/-! CRC: one table step equals eight bit steps; the bit step is injective. -/

namespace Verif.Proof
open Verif.Model Verif.Spec

/-- The reflected division step without message bit. -/
def crcU (h : U32) : U32 := (h >>> 1) ^^^ (if h.getLsbD 0 then 0xEDB88320#32 else 0#32)

/-- a message bit as a register -/
def bitWord (b : Bool) : U32 := if b then 1#32 else 0#32

theorem crcBit_eq (h : U32) (b : Bool) : crcBit h b = crcU (h ^^^ bitWord b) := by
  have e0 : (h ^^^ bitWord b).getLsbD 0 = (h.getLsbD 0 ^^ b) := by
    rw [BitVec.getLsbD_xor]
    cases b <;> simp [bitWord]
  have e1 : (h ^^^ bitWord b) >>> 1 = h >>> 1 := by
    apply BitVec.eq_of_getLsbD_eq
    intro i hi
    rw [BitVec.getLsbD_ushiftRight, BitVec.getLsbD_ushiftRight, BitVec.getLsbD_xor]
    cases b <;> simp [bitWord, BitVec.getLsbD_one]
  rw [crcBit, crcU, e0, e1, show crcPoly = 0xEDB88320#32 by decide]
  cases h.getLsbD 0 <;> cases b <;> simp

theorem crcU_inj {x y : U32} (h : crcU x = crcU y) : x = y := by
  have key : ∀ i, (crcU x).getLsbD i = (crcU y).getLsbD i := by intro i; rw [h]
  have e : ∀ (z : U32) i, (crcU z).getLsbD i = (z.getLsbD (1 + i) ^^ (z.getLsbD 0 && (0xEDB88320#32).getLsbD i)) := by
    intro z i
    rw [crcU, BitVec.getLsbD_xor, BitVec.getLsbD_ushiftRight]
    cases hz : z.getLsbD 0 <;> simp
  have h31 := key 31
  rw [e, e, BitVec.getLsbD_of_ge x (1 + 31) (by omega), BitVec.getLsbD_of_ge y (1 + 31) (by omega),
    show (0xEDB88320#32).getLsbD 31 = true by rfl] at h31
  simp only [Bool.false_xor, Bool.and_true] at h31
  apply BitVec.eq_of_getLsbD_eq
  intro i hi
  cases i with
  | zero => exact h31
  | succ i =>
    have := key i
    rw [e, e, h31, Nat.add_comm 1 i] at this
    cases hx : x.getLsbD (i + 1) <;> cases hy : y.getLsbD (i + 1) <;> simp_all

theorem crcU_iter_inj (n : Nat) {x y : U32} (h : crcU^[n] x = crcU^[n] y) : x = y :=
  Function.Injective.iterate (fun _ _ => crcU_inj) n h

/-- A list of bits as a register, first bit lowest. -/
def bitsWord : List Bool → U32
  | [] => 0#32
  | b :: w => (bitsWord w <<< 1) ^^^ bitWord b

theorem bitWord_getLsbD (b : Bool) (i : Nat) : (bitWord b).getLsbD i = (decide (i = 0) && b) := by
  cases b <;> simp [bitWord, BitVec.getLsbD_one]

theorem bitsWord_getLsbD : ∀ (w : List Bool) (i : Nat), i < 32 → (bitsWord w).getLsbD i = w.getD i false
  | [], i, _ => by simp [bitsWord]
  | b :: w, 0, _ => by
      rw [bitsWord, BitVec.getLsbD_xor, BitVec.getLsbD_shiftLeft, bitWord_getLsbD]; simp
  | b :: w, i + 1, h => by
      rw [bitsWord, BitVec.getLsbD_xor, BitVec.getLsbD_shiftLeft, bitWord_getLsbD]
      simp [h, bitsWord_getLsbD w i (by omega)]

theorem crcU_shift {x y : U32} (hy : y.getLsbD 31 = false) : crcU ((y <<< 1) ^^^ x) = crcU x ^^^ y := by
  have e : ∀ (z : U32) i, (crcU z).getLsbD i = (z.getLsbD (1 + i) ^^ (z.getLsbD 0 && (0xEDB88320#32).getLsbD i)) := by
    intro z i
    rw [crcU, BitVec.getLsbD_xor, BitVec.getLsbD_ushiftRight]
    cases hz : z.getLsbD 0 <;> simp
  apply BitVec.eq_of_getLsbD_eq
  intro i hi
  rw [BitVec.getLsbD_xor, e, e, BitVec.getLsbD_xor, BitVec.getLsbD_shiftLeft, BitVec.getLsbD_xor, BitVec.getLsbD_shiftLeft]
  by_cases h31 : i = 31
  · subst h31
    rw [hy, BitVec.getLsbD_of_ge x (1 + 31) (by omega)]
    simp
  · have : 1 + i < 32 := by omega
    rw [Nat.add_sub_cancel_left]
    simp only [this, decide_true, show ¬ (1 + i < 1) by omega, decide_false]
    generalize x.getLsbD (1 + i) = a
    generalize y.getLsbD i = b
    generalize (0xEDB88320#32).getLsbD i = c
    simp only [Nat.zero_lt_one, decide_true, Bool.not_true, Bool.false_and, Bool.and_false, Bool.false_xor]
    generalize x.getLsbD 0 = d
    cases a <;> cases b <;> cases c <;> cases d <;> rfl

/-- Up to 32 message bits can be xored into the register at once. -/
theorem foldl_crcBit : ∀ (w : List Bool) (h : U32), w.length ≤ 32 → w.foldl crcBit h = crcU^[w.length] (h ^^^ bitsWord w)
  | [], h, _ => by simp [bitsWord]
  | b :: w, h, hl => by
      have hl' : w.length ≤ 31 := by simpa using hl
      rw [List.foldl_cons, foldl_crcBit w _ (by omega), crcBit_eq, List.length_cons, Function.iterate_succ_apply, bitsWord,
        show h ^^^ (bitsWord w <<< 1 ^^^ bitWord b) = (bitsWord w <<< 1) ^^^ (h ^^^ bitWord b) by
          rw [← BitVec.xor_assoc, ← BitVec.xor_assoc, BitVec.xor_comm h], crcU_shift]
      rw [bitsWord_getLsbD w 31 (by omega), List.getD_eq_getElem?_getD, List.getElem?_eq_none (by omega)]
      rfl

theorem crcTable_eq : ∀ b : BitVec 8, crcTable.getD b.toNat 0#32 = crcU^[8] (b.setWidth 32) := by
  have : ∀ n < 256, crcTable.getD n 0#32 = crcU^[8] (BitVec.ofNat 32 n) := by decide +kernel
  intro b
  rw [this b.toNat b.isLt]
  congr 1
  apply BitVec.eq_of_toNat_eq
  rw [BitVec.toNat_setWidth, BitVec.toNat_ofNat]

theorem crcU_iter_shift : ∀ (n : Nat) (x y : U32), (∀ i, 32 ≤ i + n → y.getLsbD i = false) →
    crcU^[n] ((y <<< n) ^^^ x) = crcU^[n] x ^^^ y
  | 0, x, y, _ => by simp [BitVec.xor_comm]
  | n + 1, x, y, h => by
      have hs : y <<< (n + 1) = (y <<< n) <<< 1 := by rw [← BitVec.shiftLeft_add]
      have h31 : (y <<< n).getLsbD 31 = false := by
        rw [BitVec.getLsbD_shiftLeft]
        by_cases hn : 31 < n
        · simp [hn]
        · rw [h (31 - n) (by omega)]; simp
      rw [Function.iterate_succ_apply, Function.iterate_succ_apply, hs, crcU_shift h31, BitVec.xor_comm,
        crcU_iter_shift n _ _ (fun i hi => h i (by omega))]

theorem byteBits_word (b : Byte) : bitsWord ((List.range 8).map (fun i => b.getLsbD i)) = b.setWidth 32 := by
  apply BitVec.eq_of_getLsbD_eq
  intro i hi
  rw [bitsWord_getLsbD _ _ hi, BitVec.getLsbD_setWidth, List.getD_eq_getElem?_getD, List.getElem?_map]
  by_cases h : i < 8
  · simp [List.getElem?_range h, hi]
  · simp [List.getElem?_eq_none (l := List.range 8) (i := i) (by simp; omega), BitVec.getLsbD_of_ge b i (by omega)]

/-- One table step is eight bit steps. -/
theorem crcStep_eq (h : U32) (b : Byte) : crcStep h b = ((List.range 8).map (fun i => b.getLsbD i)).foldl crcBit h := by
  rw [foldl_crcBit _ _ (by simp), byteBits_word, crcStep]
  set x := h ^^^ b.setWidth 32 with hx
  have hlo : (x &&& 0xFF#32) = (x.setWidth 8).setWidth 32 := by
    apply BitVec.eq_of_getLsbD_eq
    intro i hi
    rw [BitVec.getLsbD_and, BitVec.getLsbD_setWidth, BitVec.getLsbD_setWidth]
    have : (0xFF#32).getLsbD i = decide (i < 8) := by
      have : ∀ i < 32, (0xFF#32).getLsbD i = decide (i < 8) := by decide
      exact this i hi
    rw [this]
    simp [hi, Bool.and_comm]
  have hsplit : x = ((h >>> 8) <<< 8) ^^^ (x.setWidth 8).setWidth 32 := by
    apply BitVec.eq_of_getLsbD_eq
    intro i hi
    rw [BitVec.getLsbD_xor (x := (h >>> 8) <<< 8), BitVec.getLsbD_setWidth 32 (x.setWidth 8), BitVec.getLsbD_setWidth 8 x,
      BitVec.getLsbD_shiftLeft, BitVec.getLsbD_ushiftRight]
    by_cases h8 : i < 8
    · simp [h8, hi]
    · rw [show 8 + (i - 8) = i by omega, hx, BitVec.getLsbD_xor, BitVec.getLsbD_setWidth, BitVec.getLsbD_of_ge b i (by omega)]
      simp [h8, hi]
  have ht : (x &&& 0xFF#32).toNat = (x.setWidth 8).toNat := by
    rw [hlo, BitVec.toNat_setWidth, Nat.mod_eq_of_lt]
    have := (x.setWidth 8).isLt; omega
  rw [ht, crcTable_eq, List.length_map, List.length_range]
  conv_rhs => rw [hsplit]
  rw [crcU_iter_shift, BitVec.xor_comm]
  intro i hi
  rw [BitVec.getLsbD_ushiftRight, BitVec.getLsbD_of_ge h _ (by omega)]

theorem crcAdd_eq : ∀ (m : List Byte) (h : U32), crcAdd h m = (messageBits m).foldl crcBit h
  | [], h => rfl
  | b :: m, h => by
      rw [crcAdd, List.foldl_cons, ← crcAdd, crcAdd_eq m, crcStep_eq, ← List.foldl_append]
      rfl

theorem crcData_eq (h : U32) : crcData h = [BitVec.ofNat 8 ((~~~ h).toNat / 2 ^ 24), BitVec.ofNat 8 ((~~~ h).toNat / 2 ^ 16),
    BitVec.ofNat 8 ((~~~ h).toNat / 2 ^ 8), BitVec.ofNat 8 (~~~ h).toNat] := by
  have hx : h ^^^ 0xFFFFFFFF#32 = ~~~ h := by
    rw [show (0xFFFFFFFF#32) = BitVec.allOnes 32 by rfl, BitVec.xor_allOnes]
  have key : ∀ (w : U32) (k : Nat), (((w >>> k) &&& 0xFF#32).setWidth 8 : Byte) = BitVec.ofNat 8 (w.toNat / 2 ^ k) := by
    intro w k
    apply BitVec.eq_of_toNat_eq
    rw [BitVec.toNat_setWidth, BitVec.toNat_and, BitVec.toNat_ushiftRight, show BitVec.toNat 0xFF#32 = 2 ^ 8 - 1 by rfl,
      Nat.and_two_pow_sub_one_eq_mod, BitVec.toNat_ofNat, Nat.mod_mod, Nat.shiftRight_eq_div_pow]
  rw [crcData, hx]
  simp only [key]
  rw [show List.range 4 = [0, 1, 2, 3] from rfl]
  simp

/-- The bit step is injective in the register. -/
theorem foldl_crcBit_inj : ∀ (s : List Bool) {h h' : U32}, s.foldl crcBit h = s.foldl crcBit h' → h = h'
  | [], _, _, e => e
  | b :: s, h, h', e => by
      have := foldl_crcBit_inj s e
      rw [crcBit_eq, crcBit_eq] at this
      exact BitVec.xor_left_inj _ |>.mp (crcU_inj this)

theorem bitsWord_inj {w w' : List Bool} (hl : w.length = w'.length) (h32 : w.length ≤ 32) (h : bitsWord w = bitsWord w') : w = w' := by
  apply List.ext_getElem hl
  intro i h1 h2
  have e1 := bitsWord_getLsbD w i (by omega)
  have e2 := bitsWord_getLsbD w' i (by omega)
  rw [h, e2] at e1
  simpa [List.getD_eq_getElem?_getD, h1, h2] using e1.symm

theorem crcOfBits_burst {p w w' s : List Bool} (hl : w.length = w'.length) (h32 : w.length ≤ 32) (hne : w ≠ w') :
    crcOfBits (p ++ w ++ s) ≠ crcOfBits (p ++ w' ++ s) := by
  intro h
  unfold crcOfBits at h
  have h := BitVec.not_inj.mp h
  simp only [List.foldl_append] at h
  have h := foldl_crcBit_inj s h
  rw [foldl_crcBit w _ h32, foldl_crcBit w' _ (by omega), ← hl] at h
  exact hne (bitsWord_inj hl h32 ((BitVec.xor_right_inj _).mp (crcU_iter_inj _ h)))

end Verif.Proof
