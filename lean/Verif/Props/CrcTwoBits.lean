import Verif.Proof.CrcOrder
import Verif.Props.Crc

/-! C90: CRC32 and double bit errors. -/

namespace Verif.Props
open Verif.Model Verif.Proof

/-- The effect of a difference of registers spreads independently of the message. -/
theorem foldl_crcBit_xor : ∀ (s : List Bool) (h d : U32), s.foldl Spec.crcBit (h ^^^ d) = s.foldl Spec.crcBit h ^^^ crcU^[s.length] d
  | [], _, _ => rfl
  | b :: s, h, d => by
    rw [List.foldl_cons, List.foldl_cons, crcBit_eq, crcBit_eq, show h ^^^ d ^^^ bitWord b = h ^^^ bitWord b ^^^ d by ac_rfl, crcU_lin,
      foldl_crcBit_xor s, List.length_cons, Function.iterate_succ_apply]

theorem crcBit_flip (h : U32) (b : Bool) : Spec.crcBit h (!b) = Spec.crcBit h b ^^^ crcU 1#32 := by
  rw [crcBit_eq, crcBit_eq, ← crcU_lin, BitVec.xor_assoc]
  congr 2
  cases b <;> rfl

/-- C90: two messages that differ in exactly two bits have the same CRC if and only if the distance of the two bits is a multiple of `2^32 - 1`.
The order of bits is that of the CRC: least significant bit of each byte first. -/
theorem C90_two_bits (m m' : List Byte) (p q s : List Bool) (x y : Bool) (hm : Spec.messageBits m = p ++ x :: (q ++ y :: s))
    (hm' : Spec.messageBits m' = p ++ (!x) :: (q ++ (!y) :: s)) : Model.crc32 m = Model.crc32 m' ↔ 2 ^ 32 - 1 ∣ q.length + 1 := by
  rw [crc32_eq_iff, hm, hm', Spec.crcOfBits, Spec.crcOfBits, BitVec.not_inj]
  simp only [List.foldl_append, List.foldl_cons]
  rw [crcBit_flip _ x, foldl_crcBit_xor q]
  generalize q.foldl Spec.crcBit _ = h
  have e : Spec.crcBit (h ^^^ crcU^[q.length] (crcU 1#32)) (!y) = Spec.crcBit h y ^^^ crcU (crcU^[q.length + 1] 1#32 ^^^ 1#32) := by
    rw [crcBit_flip, crcBit_eq, crcBit_eq, ← crcU_lin, ← crcU_lin, Function.iterate_succ_apply]
    congr 1; ac_rfl
  rw [e]
  have h1 : (1#32 : U32) = crcU^[31] crcOne := by decide
  have h2 : crcU^[q.length + 1] 1#32 = 1#32 ↔ 2 ^ 32 - 1 ∣ q.length + 1 := by
    rw [show 2 ^ 32 - 1 = 4294967295 from rfl, ← crcPow_one_iff, crcPow]
    conv_lhs => rw [h1, ← Function.iterate_add_apply, Nat.add_comm, Function.iterate_add_apply]
    exact ⟨fun h => crcU_iter_inj 31 h, fun h => congrArg _ h⟩
  rw [← h2]
  constructor
  · intro hh
    have := foldl_crcBit_inj s hh
    have h3 : crcU (crcU^[q.length + 1] 1#32 ^^^ 1#32) = 0#32 := by
      have := congrArg (fun z => Spec.crcBit h y ^^^ z) this
      simp only [BitVec.xor_self, ← BitVec.xor_assoc, BitVec.zero_xor] at this
      exact this.symm
    have h4 : crcU^[q.length + 1] 1#32 ^^^ 1#32 = 0#32 := crcU_inj (h3.trans crcU_lin.zero.symm)
    exact BitVec.xor_eq_zero_iff.mp h4
  · intro hh
    rw [hh, BitVec.xor_self, crcU_lin.zero, BitVec.xor_zero]

/-- A case that meets the hypotheses of `C90_two_bits`. -/
example := C90_two_bits [0#8] [3#8] [] [] (List.replicate 6 false) false false (by decide +kernel) (by decide +kernel)

/-- C90: every double bit error in a message of less than `2^32` bits (512 MB) is detected. -/
theorem C90_detected (m m' : List Byte) (p q s : List Bool) (x y : Bool) (hm : Spec.messageBits m = p ++ x :: (q ++ y :: s))
    (hm' : Spec.messageBits m' = p ++ (!x) :: (q ++ (!y) :: s)) (hl : m.length < 2 ^ 29) : Model.crc32 m ≠ Model.crc32 m' := by
  rw [Ne, C90_two_bits m m' p q s x y hm hm']
  intro hd
  have h1 := Nat.le_of_dvd (by omega) hd
  have h2 := congrArg List.length hm
  have hlen : ∀ x : List Byte, (Spec.messageBits x).length = 8 * x.length := by
    intro x
    simp [Spec.messageBits, List.length_flatMap]; omega
  rw [hlen] at h2
  simp only [List.length_append, List.length_cons] at h2
  omega

/-- A case that meets the hypotheses of `C90_detected`. -/
example := C90_detected [0#8] [3#8] [] [] (List.replicate 6 false) false false (by decide +kernel) (by decide +kernel) (by decide)

theorem messageBits_zeros (n : Nat) : Spec.messageBits (List.replicate n 0#8) = List.replicate (8 * n) false := by
  induction n with
  | zero => rfl
  | succ n ih =>
    rw [List.replicate_succ, show Spec.messageBits (0#8 :: List.replicate n 0#8) = List.replicate 8 false ++ Spec.messageBits (List.replicate n 0#8) from rfl,
      ih, List.replicate_append_replicate]
    congr 1; omega

/-- C90: the bound is sharp: in messages of `2^29` bytes the first and the last bit can be changed without detection. -/
theorem C90_undetected : Model.crc32 (0#8 :: (List.replicate (2 ^ 29 - 2) 0#8 ++ [0#8])) =
    Model.crc32 (1#8 :: (List.replicate (2 ^ 29 - 2) 0#8 ++ [0x80#8])) := by
  have hcons : ∀ b x, Spec.messageBits (b :: x) = (List.range 8).map (fun i => b.getLsbD i) ++ Spec.messageBits x := fun _ _ => rfl
  have happ : ∀ x y : List Byte, Spec.messageBits (x ++ y) = Spec.messageBits x ++ Spec.messageBits y := by
    intro x y; simp [Spec.messageBits]
  refine (C90_two_bits _ _ [] (List.replicate 7 false ++ (List.replicate (8 * (2 ^ 29 - 2)) false ++ List.replicate 7 false)) [] false false ?_ ?_).mpr ?_
  · rw [hcons, happ, messageBits_zeros, show (List.range 8).map (fun i => (0#8 : Byte).getLsbD i) = false :: List.replicate 7 false by decide,
      show Spec.messageBits [0#8] = List.replicate 7 false ++ [false] by decide]
    simp only [List.nil_append, List.cons_append, List.append_assoc]
  · rw [hcons, happ, messageBits_zeros, show (List.range 8).map (fun i => (1#8 : Byte).getLsbD i) = true :: List.replicate 7 false by decide,
      show Spec.messageBits [0x80#8] = List.replicate 7 false ++ [true] by decide]
    simp only [List.nil_append, List.cons_append, List.append_assoc, Bool.not_false]
  · simp only [List.length_append, List.length_replicate]
    exact ⟨1, by norm_num⟩

/-- The hypotheses can be met: bits 1 and 10 of a two-byte message. -/
example : Spec.messageBits [0x00#8, 0x00#8] = [false] ++ false :: (List.replicate 8 false ++ false :: List.replicate 5 false) ∧
    Spec.messageBits [0x02#8, 0x04#8] = [false] ++ (!false) :: (List.replicate 8 false ++ (!false) :: List.replicate 5 false) := by decide

end Verif.Props
