import Verif.Proof.Crc

/-! Properties C12 and C13: CRC32. -/

namespace Verif.Props
open Verif.Model Verif.Proof

/-- C12. The table-driven CRC32 is the bitwise CRC-32/ISO-HDLC, for every byte string. -/
theorem C12_crc32_bitwise (data : List Byte) : Model.crc32 data = Spec.crc32 data := by
  rw [Model.crc32, crcData_eq, crcAdd_eq]; rfl

/-- The specification agrees with the check value of the CRC catalogue and uses the polynomial 0xEDB88320. -/
example : Spec.crc32 (ascii "123456789") = [0xcb, 0xf4, 0x39, 0x26] := by decide +kernel
example : Spec.crcPoly = 0xEDB88320#32 := by decide

/-- The four output bytes determine the 32-bit value. -/
theorem crc32_eq_iff (m m' : List Byte) :
    Model.crc32 m = Model.crc32 m' ↔ Spec.crcOfBits (Spec.messageBits m) = Spec.crcOfBits (Spec.messageBits m') := by
  rw [C12_crc32_bitwise, C12_crc32_bitwise, Spec.crc32, Spec.crc32]
  constructor
  · intro h
    simp only [List.cons.injEq, and_true] at h
    obtain ⟨h3, h2, h1, h0⟩ := h
    have e : ∀ {a b : Nat}, BitVec.ofNat 8 a = BitVec.ofNat 8 b → a % 256 = b % 256 := by
      intro a b h
      have := congrArg BitVec.toNat h
      simpa [BitVec.toNat_ofNat] using this
    have h3 := e h3; have h2 := e h2; have h1 := e h1; have h0 := e h0
    apply BitVec.eq_of_toNat_eq
    have := (Spec.crcOfBits (Spec.messageBits m)).isLt
    have := (Spec.crcOfBits (Spec.messageBits m')).isLt
    omega
  · intro h; rw [h]

/-- C13. Two messages whose bit strings agree before and after a window of at most 32 bits and differ inside it have different CRCs. -/
theorem C13_crc32_detects_bursts (m m' : List Byte) (p w w' s : List Bool) (hm : Spec.messageBits m = p ++ w ++ s)
    (hm' : Spec.messageBits m' = p ++ w' ++ s) (hl : w.length = w'.length) (h32 : w.length ≤ 32) (hne : w ≠ w') :
    Model.crc32 m ≠ Model.crc32 m' := by
  rw [Ne, crc32_eq_iff, hm, hm']
  exact crcOfBits_burst hl h32 hne

/-- the hypotheses can be met: a burst of 12 bits across a byte boundary -/
example : Spec.messageBits [0x31#8, 0x32#8, 0x33#8] = Spec.messageBits [0x31#8] ++ (Spec.messageBits [0x32#8, 0x33#8]).take 12 ++
      (Spec.messageBits [0x32#8, 0x33#8]).drop 12 ∧
    Spec.messageBits [0x31#8, 0x33#8, 0x3b#8] = Spec.messageBits [0x31#8] ++ (Spec.messageBits [0x33#8, 0x3b#8]).take 12 ++
      (Spec.messageBits [0x32#8, 0x33#8]).drop 12 ∧
    (Spec.messageBits [0x32#8, 0x33#8]).take 12 ≠ (Spec.messageBits [0x33#8, 0x3b#8]).take 12 := by decide

/-- C13, single bytes: changing any non-empty set of bits in up to four consecutive bytes changes the CRC. -/
theorem C13_four_bytes (pre a b post : List Byte) (hl : a.length = b.length) (h4 : a.length ≤ 4) (hne : a ≠ b) :
    Model.crc32 (pre ++ a ++ post) ≠ Model.crc32 (pre ++ b ++ post) := by
  have happ : ∀ x y : List Byte, Spec.messageBits (x ++ y) = Spec.messageBits x ++ Spec.messageBits y := by
    intro x y; simp [Spec.messageBits]
  have hlen : ∀ x : List Byte, (Spec.messageBits x).length = 8 * x.length := by
    intro x
    induction x with
    | nil => rfl
    | cons b x ih =>
      rw [show Spec.messageBits (b :: x) = (List.range 8).map (fun i => b.getLsbD i) ++ Spec.messageBits x from rfl, List.length_append, ih]
      simp; omega
  have hinj : ∀ x y : List Byte, Spec.messageBits x = Spec.messageBits y → x = y := by
    intro x
    induction x with
    | nil =>
      intro y h
      have := congrArg List.length h
      rw [hlen, hlen] at this
      cases y with
      | nil => rfl
      | cons _ _ => simp at this
    | cons b x ih =>
      intro y h
      cases y with
      | nil => have := congrArg List.length h; rw [hlen, hlen] at this; simp at this
      | cons c y =>
        rw [show Spec.messageBits (b :: x) = (List.range 8).map (fun i => b.getLsbD i) ++ Spec.messageBits x from rfl,
          show Spec.messageBits (c :: y) = (List.range 8).map (fun i => c.getLsbD i) ++ Spec.messageBits y from rfl] at h
        obtain ⟨h1, h2⟩ := List.append_inj h (by simp)
        rw [ih y h2]
        congr 1
        apply BitVec.eq_of_getLsbD_eq
        intro i hi
        have := congrArg (fun l => l.getD i false) h1
        simpa [List.getD_eq_getElem?_getD, List.getElem?_map, List.getElem?_range hi] using this
  refine C13_crc32_detects_bursts _ _ (Spec.messageBits pre) (Spec.messageBits a) (Spec.messageBits b) (Spec.messageBits post) ?_ ?_ ?_ ?_ ?_
  · rw [happ, happ]
  · rw [happ, happ]
  · rw [hlen, hlen, hl]
  · rw [hlen]; omega
  · exact fun h => hne (hinj _ _ h)

example : ([1#8, 2#8, 3#8, 4#8] : List Byte).length = [1#8, 2#8, 3#8, 5#8].length ∧ ([1#8, 2#8, 3#8, 4#8] : List Byte) ≠ [1#8, 2#8, 3#8, 5#8] := by
  decide

end Verif.Props
