import Verif.Proof.CrcTriple
import Verif.Props.CrcTwoBits

/-! C153: CRC32 and triple bit errors. -/

namespace Verif.Props
open Verif.Model Verif.Proof

/-- Messages that differ in exactly three bits: the CRCs agree if and only if three powers of `x` add up to zero modulo the polynomial. -/
theorem three_bits (m m' : List Byte) (p q r s : List Bool) (x y z : Bool) (hm : Spec.messageBits m = p ++ x :: (q ++ y :: (r ++ z :: s)))
    (hm' : Spec.messageBits m' = p ++ (!x) :: (q ++ (!y) :: (r ++ (!z) :: s))) :
    Model.crc32 m = Model.crc32 m' ↔ crcPow (q.length + r.length + 2) ^^^ crcPow (r.length + 1) = crcOne := by
  rw [crc32_eq_iff, hm, hm', Spec.crcOfBits, Spec.crcOfBits, BitVec.not_inj]
  simp only [List.foldl_append, List.foldl_cons]
  rw [crcBit_flip _ x, foldl_crcBit_xor q]
  generalize q.foldl Spec.crcBit _ = h
  have e : Spec.crcBit (h ^^^ crcU^[q.length] (crcU 1#32)) (!y) = Spec.crcBit h y ^^^ crcU (crcU^[q.length + 1] 1#32 ^^^ 1#32) := by
    rw [crcBit_flip, crcBit_eq, crcBit_eq, ← crcU_lin, ← crcU_lin, Function.iterate_succ_apply]
    congr 1; ac_rfl
  rw [e, foldl_crcBit_xor r]
  generalize r.foldl Spec.crcBit _ = g
  have e2 : Spec.crcBit (g ^^^ crcU^[r.length] (crcU (crcU^[q.length + 1] 1#32 ^^^ 1#32))) (!z) =
      Spec.crcBit g z ^^^ crcU (crcU^[r.length + 1] (crcU^[q.length + 1] 1#32 ^^^ 1#32) ^^^ 1#32) := by
    rw [crcBit_flip, crcBit_eq, crcBit_eq, ← crcU_lin, ← crcU_lin, Function.iterate_succ_apply]
    congr 1; ac_rfl
  rw [e2]
  have h1 : (1#32 : U32) = crcU^[31] crcOne := by decide
  have h3 : crcU^[r.length + 1] (crcU^[q.length + 1] 1#32 ^^^ 1#32) ^^^ 1#32 =
      crcU^[31] (crcPow (q.length + r.length + 2) ^^^ crcPow (r.length + 1) ^^^ crcOne) := by
    have sh : ∀ k, crcU^[k] 1#32 = crcU^[31] (crcPow k) := fun k => by
      rw [h1, ← Function.iterate_add_apply, Nat.add_comm, Function.iterate_add_apply, crcPow]
    rw [crcU_iter_lin, ← Function.iterate_add_apply, show r.length + 1 + (q.length + 1) = q.length + r.length + 2 by omega, sh, sh, crcU_iter_lin 31, crcU_iter_lin 31, ← h1]
  rw [h3]
  generalize crcPow (q.length + r.length + 2) ^^^ crcPow (r.length + 1) = d
  constructor
  · intro hh
    have := foldl_crcBit_inj s hh
    have h4 : crcU (crcU^[31] (d ^^^ crcOne)) = 0#32 := by
      have := congrArg (fun w => Spec.crcBit g z ^^^ w) this
      simp only [BitVec.xor_self, ← BitVec.xor_assoc, BitVec.zero_xor] at this
      exact this.symm
    have h5 : crcU^[31] (d ^^^ crcOne) = 0#32 := crcU_inj (h4.trans crcU_lin.zero.symm)
    have h6 : d ^^^ crcOne = 0#32 := crcU_iter_inj 31 (h5.trans (crcU_iter_lin 31).zero.symm)
    exact BitVec.xor_eq_zero_iff.mp h6
  · intro hh
    rw [hh, BitVec.xor_self, (crcU_iter_lin 31).zero, crcU_lin.zero, BitVec.xor_zero]

theorem messageBits_length (x : List Byte) : (Spec.messageBits x).length = 8 * x.length := by
  simp [Spec.messageBits, List.length_flatMap]; omega

theorem xor_one_mod {a b : U32} (h : a ^^^ b = crcOne) : a.toNat % 2147483648 = b.toNat % 2147483648 := by
  have e : a = b ^^^ crcOne := by rw [← h, BitVec.xor_comm a b, ← BitVec.xor_assoc, BitVec.xor_self, BitVec.zero_xor]
  rw [e, BitVec.toNat_xor]
  change (b.toNat ^^^ 2 ^ 31) % 2 ^ 31 = b.toNat % 2 ^ 31
  rw [Nat.xor_mod_two_pow, Nat.mod_self, Nat.xor_zero]

/-- C153: every triple bit error in a message of at most 11454 bytes is detected. The order of bits is that of the CRC: least significant bit of each byte first. -/
theorem C153_detected (m m' : List Byte) (p q r s : List Bool) (x y z : Bool) (hm : Spec.messageBits m = p ++ x :: (q ++ y :: (r ++ z :: s)))
    (hm' : Spec.messageBits m' = p ++ (!x) :: (q ++ (!y) :: (r ++ (!z) :: s))) (hl : m.length ≤ 11454) : Model.crc32 m ≠ Model.crc32 m' := by
  rw [Ne, three_bits m m' p q r s x y z hm hm']
  intro hd
  have h2 := congrArg List.length hm
  rw [messageBits_length] at h2
  simp only [List.length_append, List.length_cons] at h2
  exact crcPow_apart (r.length + 1) (q.length + r.length + 2) (by omega) (by omega) (xor_one_mod hd).symm

/-- Values of `crcPow` along the binary digits of 91639. -/
def crcChainLong : List U32 := [
  0x80000000#32, 0x80000000#32, 0x80000000#32, 0x80000000#32, 0x80000000#32, 0x80000000#32, 0x80000000#32, 0x80000000#32, 0x80000000#32, 0x80000000#32, 0x80000000#32,
  0x80000000#32, 0x80000000#32, 0x80000000#32, 0x80000000#32, 0x80000000#32, 0x40000000#32, 0x20000000#32, 0x04000000#32, 0x00100000#32, 0x00000200#32, 0xc8d98a08#32,
  0x299dc2ed#32, 0x26847614#32, 0x16bc4e06#32, 0x1d0f0dac#32, 0x1e6f46fe#32, 0x1c55a7ca#32, 0x3f9e9356#32, 0xadbc9d71#32, 0x447b5ebd#32, 0xa1978a0b#32, 0x0a02228b#32]

/-- Values of `crcPow` along the binary digits of 41678. -/
def crcChainShort : List U32 := [
  0x80000000#32, 0x80000000#32, 0x80000000#32, 0x80000000#32, 0x80000000#32, 0x80000000#32, 0x80000000#32, 0x80000000#32, 0x80000000#32, 0x80000000#32, 0x80000000#32,
  0x80000000#32, 0x80000000#32, 0x80000000#32, 0x80000000#32, 0x80000000#32, 0x80000000#32, 0x40000000#32, 0x20000000#32, 0x04000000#32, 0x00200000#32, 0x00000800#32,
  0x3b83984b#32, 0x440b7579#32, 0x2ea332fa#32, 0x6e5356bf#32, 0xdac85619#32, 0x6e61e510#32, 0x54939196#32, 0xa7f3267d#32, 0x048a4f15#32, 0x330ca3fc#32, 0x8a02228b#32]

/-- Bits 0, 91639 - 41678 and 91639 of a message: three bits, of which the CRC takes no notice. -/
theorem pow_sum : crcPow 91639 ^^^ crcPow 41678 = crcOne := by
  rw [crcChain crcChainLong 91639 (by decide) (by decide) (by decide +kernel), crcChain crcChainShort 41678 (by decide) (by decide) (by decide +kernel)]
  decide

/-- C153: the bound is sharp: in messages of 11455 bytes there are three bits that can be changed without detection. -/
theorem C153_undetected : Model.crc32 (List.replicate 11455 0#8) =
    Model.crc32 (1#8 :: (List.replicate 6244 0#8 ++ 2#8 :: (List.replicate 5208 0#8 ++ [0x80#8]))) := by
  have hcons : ∀ b x, Spec.messageBits (b :: x) = (List.range 8).map (fun i => b.getLsbD i) ++ Spec.messageBits x := fun _ _ => rfl
  have happ : ∀ x y : List Byte, Spec.messageBits (x ++ y) = Spec.messageBits x ++ Spec.messageBits y := by
    intro x y; simp [Spec.messageBits]
  refine (three_bits _ _ [] (List.replicate 49960 false) (List.replicate 41677 false) [] false false false ?_ ?_).mpr ?_
  · rw [messageBits_zeros, show 8 * 11455 = 0 + (1 + (49960 + (1 + (41677 + 1)))) from rfl]
    simp only [← List.replicate_append_replicate]
    rfl
  · rw [hcons, happ, hcons, happ, messageBits_zeros, messageBits_zeros, show (List.range 8).map (fun i => (1#8 : Byte).getLsbD i) = true :: List.replicate 7 false by decide,
      show (List.range 8).map (fun i => (2#8 : Byte).getLsbD i) = false :: (true :: List.replicate 6 false) by decide,
      show Spec.messageBits [0x80#8] = List.replicate 7 false ++ [true] by decide,
      show (49960 : Nat) = 7 + (8 * 6244 + 1) from rfl, show (41677 : Nat) = 6 + (8 * 5208 + 7) from rfl]
    simp only [← List.replicate_append_replicate, List.nil_append, List.cons_append, List.append_assoc, Bool.not_false]
    rfl
  · rw [List.length_replicate, List.length_replicate]
    exact pow_sum

/-- The hypotheses can be met: bits 1, 10 and 11 of a two-byte message. -/
example := C153_detected [0x00#8, 0x00#8] [0x02#8, 0x0c#8] [false] (List.replicate 8 false) [] (List.replicate 4 false) false false false (by decide) (by decide) (by decide)

end Verif.Props
