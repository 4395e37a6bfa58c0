import Verif.Props.CrcForge
import Verif.Proof.CrcOrder

/-! C155: CRC32 respects exclusive or, is put together from the checksums of parts, and a message followed by its checksum has a fixed one. -/

namespace Verif.Props
open Verif.Model Verif.Proof

/-- The exclusive or of two byte strings. -/
def xorB (a b : List Byte) : List Byte := List.zipWith (· ^^^ ·) a b

theorem crcStep_lin (h : U32) (b : Byte) : crcStep h b = crcU^[8] (h ^^^ b.setWidth 32) := by
  rw [Proof.crcStep_eq, foldl_crcBit _ _ (by simp), byteBits_word]
  simp

theorem xor_swap (a b c d : U32) : (a ^^^ b) ^^^ (c ^^^ d) = (a ^^^ c) ^^^ (b ^^^ d) := by
  rw [BitVec.xor_assoc, ← BitVec.xor_assoc b, BitVec.xor_comm b c, BitVec.xor_assoc c, ← BitVec.xor_assoc a]

theorem crcStep_xor (h g : U32) (a b : Byte) : crcStep (h ^^^ g) (a ^^^ b) = crcStep h a ^^^ crcStep g b := by
  rw [crcStep_lin, crcStep_lin, crcStep_lin, ← crcU_iter_lin 8, BitVec.setWidth_xor, xor_swap]

theorem crcAdd_xor : ∀ (a b : List Byte) (h g : U32), a.length = b.length → crcAdd (h ^^^ g) (xorB a b) = crcAdd h a ^^^ crcAdd g b
  | [], [], _, _, _ => rfl
  | [], _ :: _, _, _, h => by simp at h
  | _ :: _, [], _, _, h => by simp at h
  | x :: a, y :: b, h, g, hl => by
    show crcAdd (crcStep (h ^^^ g) (x ^^^ y)) (xorB a b) = crcAdd (crcStep h x) a ^^^ crcAdd (crcStep g y) b
    rw [crcStep_xor, crcAdd_xor a b _ _ (by simpa using hl)]

theorem byte_xor (k : Nat) (a b : U32) : ((((a ^^^ b) >>> k) &&& 0xFF#32).setWidth 8 : Byte) = ((a >>> k) &&& 0xFF#32).setWidth 8 ^^^ ((b >>> k) &&& 0xFF#32).setWidth 8 := by
  rw [← BitVec.setWidth_xor]
  congr 1
  rw [BitVec.ushiftRight_xor_distrib]
  apply BitVec.eq_of_getLsbD_eq
  intro i hi
  simp only [BitVec.getLsbD_and, BitVec.getLsbD_xor]
  cases (a >>> k).getLsbD i <;> cases (b >>> k).getLsbD i <;> cases (0xFF#32).getLsbD i <;> rfl

theorem crcData_xor (a b c : U32) : crcData (a ^^^ b ^^^ c) = xorB (xorB (crcData a) (crcData b)) (crcData c) := by
  have e : (a ^^^ b ^^^ c) ^^^ 0xFFFFFFFF#32 = ((a ^^^ 0xFFFFFFFF#32) ^^^ (b ^^^ 0xFFFFFFFF#32)) ^^^ (c ^^^ 0xFFFFFFFF#32) := by
    rw [xor_swap a, BitVec.xor_self, BitVec.xor_zero, BitVec.xor_assoc]
  unfold crcData
  simp only [e, byte_xor, xorB]
  rfl

theorem xorB_length {a b : List Byte} (h : a.length = b.length) : (xorB a b).length = b.length := by
  rw [xorB, List.length_zipWith, h, Nat.min_self]

/-- C155: the checksum of the exclusive or of three messages of one length is the exclusive or of their checksums. -/
theorem C155_affine (a b c : List Byte) (h1 : a.length = b.length) (h2 : b.length = c.length) :
    Model.crc32 (xorB (xorB a b) c) = xorB (xorB (Model.crc32 a) (Model.crc32 b)) (Model.crc32 c) := by
  unfold Model.crc32
  rw [← crcData_xor, ← crcAdd_xor a b _ _ h1, ← crcAdd_xor _ c _ _ ((xorB_length h1).trans h2), BitVec.xor_self, BitVec.zero_xor]

example : ([1#8, 2#8, 3#8] : List Byte).length = [4#8, 5#8, 6#8].length ∧ ([4#8, 5#8, 6#8] : List Byte).length = [7#8, 8#8, 9#8].length := ⟨rfl, rfl⟩

/-- C155: so whoever changes chosen bits of a message that they do not know knows how to change the checksum. -/
theorem C155_change (m d : List Byte) (h : m.length = d.length) :
    Model.crc32 (xorB m d) = xorB (xorB (Model.crc32 m) (Model.crc32 d)) (Model.crc32 (List.replicate m.length 0#8)) := by
  have z : ∀ l : List Byte, xorB l (List.replicate l.length 0#8) = l := fun l => by
    induction l with
    | nil => rfl
    | cons x l ih => rw [List.length_cons, List.replicate_succ, xorB, List.zipWith_cons_cons, BitVec.xor_zero]; exact congrArg _ ih
  rw [← C155_affine m d (List.replicate m.length 0#8) h (by rw [List.length_replicate, h])]
  congr 1
  conv_lhs => rw [← z (xorB m d), xorB_length h, ← h]

example : ([1#8, 2#8, 3#8] : List Byte).length = [0x80#8, 0#8, 0x10#8].length := rfl

/-- C155: the checksum of two messages one after the other, from the checksums of the first followed by as many zeros and of the second. -/
theorem C155_parts (a b : List Byte) :
    Model.crc32 (a ++ b) = xorB (xorB (Model.crc32 (a ++ List.replicate b.length 0#8)) (Model.crc32 (List.replicate b.length 0#8))) (Model.crc32 b) := by
  have z : ∀ l : List Byte, xorB (xorB (List.replicate l.length 0#8) (List.replicate l.length 0#8)) l = l := fun l => by
    induction l with
    | nil => rfl
    | cons x l ih =>
      rw [List.length_cons, List.replicate_succ, xorB, xorB, List.zipWith_cons_cons, List.zipWith_cons_cons, BitVec.xor_self, BitVec.zero_xor]
      exact congrArg _ ih
  have app : ∀ (h : U32) (x y : List Byte), crcAdd h (x ++ y) = crcAdd (crcAdd h x) y := fun h x y => List.foldl_append
  unfold Model.crc32
  rw [← crcData_xor, app, app, ← crcAdd_xor _ _ _ _ rfl, ← crcAdd_xor _ b _ _ (by rw [xorB_length rfl, List.length_replicate]), z,
    BitVec.xor_assoc, BitVec.xor_self, BitVec.xor_zero]

theorem crcData_inj {h g : U32} (e : crcData h = crcData g) : h = g := by
  rw [crcData_eq, crcData_eq] at e
  simp only [List.cons.injEq, and_true] at e
  obtain ⟨h3, h2, h1, h0⟩ := e
  have f : ∀ {a b : Nat}, BitVec.ofNat 8 a = BitVec.ofNat 8 b → a % 256 = b % 256 := by
    intro a b h
    have := congrArg BitVec.toNat h
    simpa [BitVec.toNat_ofNat] using this
  have h3 := f h3; have h2 := f h2; have h1 := f h1; have h0 := f h0
  have : (~~~h) = ~~~g := by
    apply BitVec.eq_of_toNat_eq
    have := (~~~h).isLt
    have := (~~~g).isLt
    omega
  exact BitVec.not_inj.mp this

/-- C155: hence the checksums and lengths of the parts determine the checksum of the whole. -/
theorem C155_combine (a a' b b' : List Byte) (h1 : Model.crc32 a = Model.crc32 a') (h2 : Model.crc32 b = Model.crc32 b') (h : b.length = b'.length) :
    Model.crc32 (a ++ b) = Model.crc32 (a' ++ b') := by
  rw [C155_parts a b, C155_parts a' b', h2, h]
  have e : crcAdd crcNew a = crcAdd crcNew a' := crcData_inj h1
  have app : ∀ (h : U32) (x y : List Byte), crcAdd h (x ++ y) = crcAdd (crcAdd h x) y := fun h x y => List.foldl_append
  simp only [Model.crc32, app, e]

/-- Two different messages with one checksum. -/
example : Model.crc32 [0#8, 0#8, 0#8, 0#8, 0#8] = Model.crc32 [0x01#8, 0x96#8, 0x30#8, 0x07#8, 0x77#8] := by decide +kernel

/-- The bits of a word in four bytes, least significant first. -/
theorem bits_of_word (v : U32) : bitsWord (Spec.messageBits [BitVec.ofNat 8 v.toNat, BitVec.ofNat 8 (v.toNat / 2 ^ 8), BitVec.ofNat 8 (v.toNat / 2 ^ 16),
    BitVec.ofNat 8 (v.toNat / 2 ^ 24)]) = v := by
  have e : Spec.messageBits [BitVec.ofNat 8 v.toNat, BitVec.ofNat 8 (v.toNat / 2 ^ 8), BitVec.ofNat 8 (v.toNat / 2 ^ 16), BitVec.ofNat 8 (v.toNat / 2 ^ 24)] =
      (List.range 32).map (fun i => v.getLsbD i) := by
    rw [show List.range 32 = [0, 1, 2, 3, 4, 5, 6, 7, 8, 9, 10, 11, 12, 13, 14, 15, 16, 17, 18, 19, 20, 21, 22, 23, 24, 25, 26, 27, 28, 29, 30, 31] from rfl]
    simp only [Spec.messageBits, List.flatMap_cons, List.flatMap_nil, show List.range 8 = [0, 1, 2, 3, 4, 5, 6, 7] from rfl, List.map_cons, List.map_nil,
      BitVec.getLsbD_ofNat, Nat.testBit_div_two_pow, List.append_nil, List.cons_append, List.nil_append]
    simp only [BitVec.testBit_toNat]
    rfl
  rw [e]
  apply BitVec.eq_of_getLsbD_eq
  intro i hi
  rw [bitsWord_getLsbD _ _ hi, List.getD_eq_getElem?_getD, List.getElem?_map, List.getElem?_range hi]
  rfl

/-- C155: four bytes after a message give it the checksum `2144DF1C` exactly if they are its checksum, least significant byte first. -/
theorem C155_residue (m t : List Byte) (ht : t.length = 4) :
    Model.crc32 (m ++ t) = [0x21#8, 0x44#8, 0xDF#8, 0x1C#8] ↔ t = (Model.crc32 m).reverse := by
  have key : Model.crc32 (m ++ (Model.crc32 m).reverse) = [0x21#8, 0x44#8, 0xDF#8, 0x1C#8] := by
    have e : crcAdd crcNew (m ++ (Model.crc32 m).reverse) = crcU^[32] 0xFFFFFFFF#32 := by
      rw [show crcAdd crcNew (m ++ (Model.crc32 m).reverse) = crcAdd (crcAdd crcNew m) (Model.crc32 m).reverse from List.foldl_append, Model.crc32]
      generalize crcAdd crcNew m = h
      rw [crcData_eq, show [BitVec.ofNat 8 ((~~~h).toNat / 2 ^ 24), BitVec.ofNat 8 ((~~~h).toNat / 2 ^ 16), BitVec.ofNat 8 ((~~~h).toNat / 2 ^ 8),
        BitVec.ofNat 8 (~~~h).toNat].reverse = [BitVec.ofNat 8 (~~~h).toNat, BitVec.ofNat 8 ((~~~h).toNat / 2 ^ 8), BitVec.ofNat 8 ((~~~h).toNat / 2 ^ 16),
        BitVec.ofNat 8 ((~~~h).toNat / 2 ^ 24)] from rfl, crcAdd_eq, foldl_crcBit _ _ (by simp [Spec.messageBits]), bits_of_word]
      have l : (Spec.messageBits [BitVec.ofNat 8 (~~~h).toNat, BitVec.ofNat 8 ((~~~h).toNat / 2 ^ 8), BitVec.ofNat 8 ((~~~h).toNat / 2 ^ 16),
        BitVec.ofNat 8 ((~~~h).toNat / 2 ^ 24)]).length = 32 := by simp [Spec.messageBits]
      rw [l]
      congr 1
      rw [← BitVec.xor_allOnes, ← BitVec.xor_assoc, BitVec.xor_self, BitVec.zero_xor]
      rfl
    rw [Model.crc32, e]
    decide +kernel
  constructor
  · intro h
    by_contra hne
    refine C13_four_bytes m t (Model.crc32 m).reverse [] (by rw [ht, List.length_reverse, crc32_length]) (by omega) hne ?_
    rw [List.append_nil, List.append_nil, h, key]
  · rintro rfl
    exact key

/-- `123456789` and its checksum. -/
example : ([0x26#8, 0x39#8, 0xF4#8, 0xCB#8] : List Byte).length = 4 ∧ [0x26#8, 0x39#8, 0xF4#8, 0xCB#8] = (Model.crc32 (ascii "123456789")).reverse := by decide +kernel

end Verif.Props
