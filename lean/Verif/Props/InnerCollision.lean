import Verif.Props.KeccakPerm
import Mathlib.Data.Fintype.BigOperators
import Mathlib.Data.Fintype.Pigeonhole

/-! C150: what a collision of SHA-3 is made of. -/

namespace Verif.Props
open Verif Verif.Model Verif.Spec Verif.Proof

attribute [local irreducible] sha3Process

/-- The 25 lanes of a new object after `m` has been added. -/
def lanesAfter (size : Nat) (m : List Byte) : List U64 := (Sha3State.new.add size m).s

/-- The lanes that no byte of a message reaches directly, and that `data()` does not show. -/
def innerLanes (size : Nat) (s : List U64) : List U64 := s.drop (sha3Rate size / 8)

/-- Byte `n` of a state, as `data()` reads it. -/
def laneByte (s : List U64) (n : Nat) : Byte := (s.getD (n / 8) 0#64 >>> (8 * (n % 8))).setWidth 8

/-- The message with the padding of FIPS 202. -/
def padded3 (size : Nat) (m : List Byte) : List Byte := m ++ padBytes (sha3Rate size - m.length % sha3Rate size)

theorem rs_unique {x y : List U64} {S T : Keccak.BitString} (hx : RS x S) (hy : RS y T) (h : ∀ j < 1600, S j = T j) : x = y := by
  apply List.ext_getElem (by rw [hx.len, hy.len])
  intro i h1 h2
  apply BitVec.eq_of_getLsbD_eq
  intro z hz
  have hl := hx.len
  have hj : 64 * i + z < 1600 := by omega
  have := (hx.bit _ hj).trans ((h _ hj).trans (hy.bit _ hj).symm)
  rwa [show (64 * i + z) / 64 = i by omega, show (64 * i + z) % 64 = z by omega, List.getD_eq_getElem _ _ h1, List.getD_eq_getElem _ _ h2] at this

/-- Absorbing one whole block. -/
theorem absorb_block {R : Nat} (hR : 0 < R) (hR2 : R ≤ 200) {s : List U64} {S : Keccak.BitString} (hs : RS s S) (b : List Byte) (hb : b.length = R) :
    ∃ x, RS x (fun j => S j ^^ byteBit b j) ∧ b.foldl (sha3AddByte R) (s, 0) = (sha3Process x, 0) := by
  rcases List.eq_nil_or_concat b with rfl | ⟨i, c, rfl⟩
  · simp at hb; omega
  simp only [List.concat_eq_append, List.length_append, List.length_singleton] at hb ⊢
  obtain ⟨a1, a2⟩ := addBytes_rs R hR2 i 0 hs (by omega)
  rw [List.foldl_append, List.foldl_cons, List.foldl_nil]
  generalize i.foldl (sha3AddByte R) (s, 0) = p at a1 a2
  obtain ⟨p, x⟩ := p
  simp only at a1 a2
  subst a2
  rw [addByte_eq, if_pos (by omega)]
  refine ⟨_, rs_congr (rs_xorByte a1 (o := 0 + i.length) (by omega) c) fun j => ?_, rfl⟩
  rw [byteBit_append, if_pos (Nat.zero_le _), Bool.xor_assoc, Nat.mul_zero, Nat.sub_zero, Nat.zero_add]

theorem fold_offset (R : Nat) (hR : 0 < R) : ∀ (d : List Byte) (s : List U64) (o : Nat), o < R → (d.foldl (sha3AddByte R) (s, o)).2 = (o + d.length) % R
  | [], _, o, ho => by rw [List.length_nil, Nat.add_zero, Nat.mod_eq_of_lt ho]; rfl
  | c :: d, s, o, ho => by
    rw [List.foldl_cons, addByte_eq, List.length_cons]
    split
    · rw [fold_offset R hR d _ 0 hR, show o + (d.length + 1) = (0 + d.length) + R by omega, Nat.add_mod_right]
    · rw [fold_offset R hR d _ (o + 1) (by omega)]; congr 1; omega

theorem lanesAfter_fold (size : Nat) (m : List Byte) : lanesAfter size m = (m.foldl (sha3AddByte (sha3Rate size)) (List.replicate 25 0#64, 0)).1 := by
  rw [lanesAfter, Sha3State.add]
  have : (Sha3State.new.msglength).toNat % sha3Rate size = 0 := by
    show (0#64).toNat % _ = 0
    exact Nat.zero_mod _
  simp only [this]
  rfl

theorem lanesAfter_length (size : Nat) (m : List Byte) : (lanesAfter size m).length = 25 := by
  rw [lanesAfter_fold]
  have : ∀ (d : List Byte) (s : List U64) (o : Nat), s.length = 25 → (d.foldl (sha3AddByte (sha3Rate size)) (s, o)).1.length = 25 := by
    intro d
    induction d with
    | nil => intro s o h; exact h
    | cons c d ih =>
      intro s o h
      rw [List.foldl_cons, show sha3AddByte (sha3Rate size) (s, o) c = ((sha3AddByte (sha3Rate size) (s, o) c).1, (sha3AddByte (sha3Rate size) (s, o) c).2) from rfl]
      exact ih _ _ (addByte_length c h)
  exact this m _ _ List.length_replicate

theorem lanesAfter_append (size : Nat) (hR : 0 < sha3Rate size) (m d : List Byte) (hm : sha3Rate size ∣ m.length) :
    lanesAfter size (m ++ d) = (d.foldl (sha3AddByte (sha3Rate size)) (lanesAfter size m, 0)).1 := by
  rw [lanesAfter_fold, lanesAfter_fold, List.foldl_append]
  have h := fold_offset (sha3Rate size) hR m (List.replicate 25 0#64) 0 hR
  rw [Nat.zero_add, Nat.mod_eq_zero_of_dvd hm] at h
  rw [show m.foldl (sha3AddByte (sha3Rate size)) (List.replicate 25 0#64, 0) =
    ((m.foldl (sha3AddByte (sha3Rate size)) (List.replicate 25 0#64, 0)).1, (m.foldl (sha3AddByte (sha3Rate size)) (List.replicate 25 0#64, 0)).2) from rfl, h]

/-- The sizes of the library. -/
theorem rates {size : Nat} (h : size ∈ [224, 256, 384, 512]) : 0 < sha3Rate size ∧ sha3Rate size ≤ 200 ∧ sha3Rate size % 8 = 0 ∧ size ≤ 8 * sha3Rate size ∧ size % 8 = 0 := by
  simp only [List.mem_cons, List.not_mem_nil, or_false] at h
  rcases h with rfl | rfl | rfl | rfl <;> decide

/-- Two states agree in the inner lanes exactly if they agree in the bits after the rate. -/
theorem inner_bits {size : Nat} (h : size ∈ [224, 256, 384, 512]) {s t : List U64} (hs : s.length = 25) (ht : t.length = 25) :
    innerLanes size s = innerLanes size t ↔ ∀ j, 8 * sha3Rate size ≤ j → j < 1600 → (s.getD (j / 64) 0#64).getLsbD (j % 64) = (t.getD (j / 64) 0#64).getLsbD (j % 64) := by
  obtain ⟨r0, r1, r8, -, -⟩ := rates h
  constructor
  · intro e j h1 h2
    have := congrArg (fun l => l.getD (j / 64 - sha3Rate size / 8) 0#64) e
    simp only [innerLanes, List.getD_eq_getElem?_getD, List.getElem?_drop] at this
    rw [show sha3Rate size / 8 + (j / 64 - sha3Rate size / 8) = j / 64 by omega] at this
    rw [List.getD_eq_getElem?_getD, List.getD_eq_getElem?_getD, this]
  · intro e
    apply List.ext_getElem (by rw [innerLanes, innerLanes, List.length_drop, List.length_drop, hs, ht])
    intro i h1 h2
    simp only [innerLanes, List.length_drop] at h1 h2
    simp only [innerLanes, List.getElem_drop]
    apply BitVec.eq_of_getLsbD_eq
    intro z hz
    have := e (64 * (sha3Rate size / 8 + i) + z) (by omega) (by omega)
    rwa [show (64 * (sha3Rate size / 8 + i) + z) / 64 = sha3Rate size / 8 + i by omega, show (64 * (sha3Rate size / 8 + i) + z) % 64 = z by omega,
      List.getD_eq_getElem _ _ (by omega), List.getD_eq_getElem _ _ (by omega)] at this

/-- One more block: what equal states mean for the states and blocks before. -/
theorem block_step {size : Nat} (h : size ∈ [224, 256, 384, 512]) (P P' b b' : List Byte) (hP : sha3Rate size ∣ P.length) (hP' : sha3Rate size ∣ P'.length)
    (hb : b.length = sha3Rate size) (hb' : b'.length = sha3Rate size) :
    lanesAfter size (P ++ b) = lanesAfter size (P' ++ b') ↔
      ∀ j < 1600, (((lanesAfter size P).getD (j / 64) 0#64).getLsbD (j % 64) ^^ byteBit b j) = (((lanesAfter size P').getD (j / 64) 0#64).getLsbD (j % 64) ^^ byteBit b' j) := by
  obtain ⟨r0, r1, r8, -, -⟩ := rates h
  obtain ⟨x, hx, ex⟩ := absorb_block r0 r1 (rs_of_length (lanesAfter_length size P)) b hb
  obtain ⟨y, hy, ey⟩ := absorb_block r0 r1 (rs_of_length (lanesAfter_length size P')) b' hb'
  rw [lanesAfter_append size r0 P b hP, lanesAfter_append size r0 P' b' hP', ex, ey]
  constructor
  · intro e j hj
    have hxy := process_inj hx.len hy.len e
    subst hxy
    exact (hx.bit j hj).symm.trans (hy.bit j hj)
  · intro e
    rw [rs_unique hx hy e]

theorem byteBit_beyond {b : List Byte} {j : Nat} (h : 8 * b.length ≤ j) : byteBit b j = false := by
  unfold byteBit
  rw [List.getD_eq_default _ _ (by omega)]; simp

/-- C150, what a collision of the final states is: the two padded messages, without their last blocks, are different and agree in the inner lanes. -/
theorem C150_states (size : Nat) (h : size ∈ [224, 256, 384, 512]) (P P' b b' : List Byte) (hP : sha3Rate size ∣ P.length) (hP' : sha3Rate size ∣ P'.length)
    (hb : b.length = sha3Rate size) (hb' : b'.length = sha3Rate size) (hne : P ++ b ≠ P' ++ b') (he : lanesAfter size (P ++ b) = lanesAfter size (P' ++ b')) :
    P ≠ P' ∧ innerLanes size (lanesAfter size P) = innerLanes size (lanesAfter size P') := by
  obtain ⟨r0, r1, r8, -, -⟩ := rates h
  have bits := (block_step h P P' b b' hP hP' hb hb').mp he
  refine ⟨?_, ?_⟩
  · rintro rfl
    apply hne
    congr 1
    apply List.ext_getElem (by omega)
    intro i h1 h2
    apply BitVec.eq_of_getLsbD_eq
    intro z hz
    have := bits (8 * i + z) (by omega)
    rw [Bool.xor_right_inj, byteBit, byteBit, show (8 * i + z) / 8 = i by omega, show (8 * i + z) % 8 = z by omega, List.getD_eq_getElem _ _ h1,
      List.getD_eq_getElem _ _ h2] at this
    exact this
  · rw [inner_bits h (lanesAfter_length _ _) (lanesAfter_length _ _)]
    intro j h1 h2
    have := bits j h2
    rwa [byteBit_beyond (by omega), byteBit_beyond (by omega), Bool.xor_false, Bool.xor_false] at this

/-- The result of the library is the beginning of the state after the padded message. -/
theorem digest_lanes (size : Nat) (h : size ∈ [224, 256, 384, 512]) (m : List Byte) (hm : m.length < 2 ^ 63) :
    sha3Digest size m = (List.range (size / 8)).map (laneByte (lanesAfter size (padded3 size m))) := by
  obtain ⟨r0, r1, r8, -, -⟩ := rates h
  set R := sha3Rate size with hRdef
  have hlt := Nat.mod_lt m.length r0
  let P := m.take (m.length / R * R)
  let t := m.drop (m.length / R * R)
  have ht : t.length = m.length % R := tail_length R m
  have hPl : P.length = m.length / R * R := by
    rw [List.length_take]; exact Nat.min_eq_left (Nat.div_mul_le_self _ _)
  have hPd : R ∣ P.length := by rw [hPl]; exact Dvd.intro_left _ rfl
  have hPt : P ++ t = m := List.take_append_drop _ _
  have hpad : padded3 size m = P ++ (t ++ padBytes (R - m.length % R)) := by rw [padded3, ← List.append_assoc, hPt]
  have hb : (t ++ padBytes (R - m.length % R)).length = R := by rw [List.length_append, ht, padBytes_length (by omega)]; omega
  obtain ⟨x, hx, ex⟩ := absorb_block r0 r1 (rs_of_length (lanesAfter_length size P)) _ hb
  have hs : RS (lanesAfter size m) (fun j => ((lanesAfter size P).getD (j / 64) 0#64).getLsbD (j % 64) ^^ byteBit t j) := by
    have := (addBytes_rs R r1 t 0 (rs_of_length (lanesAfter_length size P)) (by omega)).1
    rw [← lanesAfter_append size r0 P t hPd, hPt] at this
    exact rs_congr this fun j => by rw [if_pos (Nat.zero_le _), Nat.mul_zero, Nat.sub_zero]
  have hfin : xorAt (xorAt (lanesAfter size m) (m.length % R / 8) (0x06#64 <<< ((m.length % R % 8) * 8))) (R / 8 - 1) 0x8000000000000000#64 = x := by
    have h1 := rs_xorByte hs (o := m.length % R) (by omega) 0x06#8
    have h2 := rs_xorByte h1 (o := R - 1) (by omega) 0x80#8
    rw [show (R - 1) / 8 = R / 8 - 1 by omega, show (R - 1) % 8 = 7 by omega, show (0x06#8).setWidth 64 = 0x06#64 from rfl,
      show (0x80#8).setWidth 64 <<< (7 * 8) = 0x8000000000000000#64 from rfl] at h2
    refine rs_unique h2 hx fun i _ => ?_
    rw [Bool.xor_assoc, Bool.xor_assoc]
    congr 1
    by_cases hi : i / 8 < m.length % R
    · rw [if_neg (by omega), if_neg (by omega), Bool.xor_false, Bool.xor_false]
      unfold byteBit
      rw [List.getD_append _ _ _ _ (by omega)]
    · have hb0 : byteBit t i = false := byteBit_beyond (by omega)
      have hb1 : byteBit (t ++ padBytes (R - m.length % R)) i = byteBit (padBytes (R - m.length % R)) (i - 8 * (m.length % R)) := by
        unfold byteBit
        rw [List.getD_append_right _ _ _ _ (by omega), ht]
        rw [show (i - 8 * (m.length % R)) / 8 = i / 8 - m.length % R by omega, show (i - 8 * (m.length % R)) % 8 = i % 8 by omega]
      rw [hb0, hb1, padBytes_bit (by omega), Bool.false_xor, show (i - 8 * (m.length % R)) % 8 = i % 8 by omega]
      congr 1
      · congr 1; apply propext; omega
      · congr 1; apply propext; omega
  have hlen : (Sha3State.new.add size m).msglength.toNat % R = m.length % R := by
    show (0#64 + BitVec.ofNat 64 m.length).toNat % R = _
    rw [BitVec.zero_add, BitVec.toNat_ofNat, Nat.mod_eq_of_lt (a := m.length) (b := 2 ^ 64) (by omega)]
  rw [hpad, lanesAfter_append size r0 P _ hPd, ex, ← hfin]
  rw [sha3Digest, Sha3State.data]
  simp only [← hRdef, hlen]
  rfl

/-- Zeros at the end can be told from what stands before them. -/
theorem zeros_tail : ∀ (a b : Nat) (x y : List Byte), x ++ [0x06#8] ++ List.replicate a 0#8 = y ++ [0x06#8] ++ List.replicate b 0#8 → x = y
  | 0, 0, x, y, e => by
    rw [List.replicate_zero, List.append_nil, List.append_nil] at e
    exact List.append_cancel_right e
  | 0, b + 1, x, y, e => by
    rw [List.replicate_succ', List.replicate_zero, List.append_nil, ← List.append_assoc] at e
    have := (List.append_inj' e rfl).2
    exact absurd this (by decide)
  | a + 1, 0, x, y, e => by
    rw [List.replicate_succ', List.replicate_zero, List.append_nil, ← List.append_assoc] at e
    have := (List.append_inj' e rfl).2
    exact absurd this (by decide)
  | a + 1, b + 1, x, y, e => by
    rw [List.replicate_succ', List.replicate_succ', ← List.append_assoc, ← List.append_assoc] at e
    exact zeros_tail a b x y (List.append_cancel_right e)

/-- The padding can be told from the message. -/
theorem padBytes_tail {k l : Nat} (x y : List Byte) (e : x ++ padBytes k = y ++ padBytes l) : x = y := by
  unfold padBytes at e
  by_cases hk : k = 1 <;> by_cases hl : l = 1
  · rw [if_pos hk, if_pos hl] at e
    exact List.append_cancel_right e
  · rw [if_pos hk, if_neg hl, ← List.append_assoc, ← List.append_assoc] at e
    exact absurd (List.append_inj' e rfl).2 (by decide)
  · rw [if_neg hk, if_pos hl, ← List.append_assoc, ← List.append_assoc] at e
    exact absurd (List.append_inj' e rfl).2 (by decide)
  · rw [if_neg hk, if_neg hl, ← List.append_assoc, ← List.append_assoc, ← List.append_assoc, ← List.append_assoc] at e
    exact zeros_tail _ _ x y (List.append_inj' e rfl).1

/-- Different messages have different padded messages. -/
theorem padded3_inj (size : Nat) {m m' : List Byte} (hne : m ≠ m') : padded3 size m ≠ padded3 size m' :=
  fun e => hne (padBytes_tail _ _ e)

/-- C150: two different messages with the same SHA-3 result lead to final states that differ outside the part that is shown, or give two different sequences of
whole blocks after which the inner lanes agree: the padded messages without their last blocks. -/
theorem C150_collision (size : Nat) (h : size ∈ [224, 256, 384, 512]) (m m' : List Byte) (hm : m.length < 2 ^ 63) (hm' : m'.length < 2 ^ 63) (hne : m ≠ m')
    (he : sha3Digest size m = sha3Digest size m') :
    (lanesAfter size (padded3 size m) ≠ lanesAfter size (padded3 size m') ∧
      ∀ n < size / 8, laneByte (lanesAfter size (padded3 size m)) n = laneByte (lanesAfter size (padded3 size m')) n) ∨
    ∃ P P' b b' : List Byte, padded3 size m = P ++ b ∧ padded3 size m' = P' ++ b' ∧ b.length = sha3Rate size ∧ b'.length = sha3Rate size ∧
      sha3Rate size ∣ P.length ∧ sha3Rate size ∣ P'.length ∧ P ≠ P' ∧ innerLanes size (lanesAfter size P) = innerLanes size (lanesAfter size P') := by
  obtain ⟨r0, r1, r8, -, -⟩ := rates h
  by_cases hst : lanesAfter size (padded3 size m) = lanesAfter size (padded3 size m')
  · right
    have split : ∀ m : List Byte, ∃ P b, padded3 size m = P ++ b ∧ b.length = sha3Rate size ∧ sha3Rate size ∣ P.length := by
      intro m
      have hlt := Nat.mod_lt m.length r0
      refine ⟨m.take (m.length / sha3Rate size * sha3Rate size), m.drop (m.length / sha3Rate size * sha3Rate size) ++ padBytes (sha3Rate size - m.length % sha3Rate size), ?_, ?_, ?_⟩
      · rw [padded3, ← List.append_assoc, List.take_append_drop]
      · rw [List.length_append, tail_length, padBytes_length (by omega)]; omega
      · rw [List.length_take, Nat.min_eq_left (Nat.div_mul_le_self _ _)]; exact Dvd.intro_left _ rfl
    obtain ⟨P, b, e1, e2, e3⟩ := split m
    obtain ⟨P', b', e1', e2', e3'⟩ := split m'
    have pne : padded3 size m ≠ padded3 size m' := padded3_inj size hne
    rw [e1, e1'] at hst pne
    obtain ⟨q1, q2⟩ := C150_states size h P P' b b' e3 e3' e2 e2' pne hst
    exact ⟨P, P', b, b', e1, e1', e2, e2', e3, e3', q1, q2⟩
  · left
    refine ⟨hst, fun n hn => ?_⟩
    rw [digest_lanes size h m hm, digest_lanes size h m' hm'] at he
    have := congrArg (fun l => l.getD n 0#8) he
    simpa [List.getD_eq_getElem?_getD, List.getElem?_range hn] using this

/-- C150, the way back: from two different sequences of whole blocks after which the inner lanes agree, and any block `b`, one gets colliding messages, with every
suffix: `b'` is made from `b` and the two states by exclusive or. -/
theorem C150_build (size : Nat) (h : size ∈ [224, 256, 384, 512]) (P P' b : List Byte) (hP : sha3Rate size ∣ P.length) (hP' : sha3Rate size ∣ P'.length)
    (hb : b.length = sha3Rate size) (hne : P ≠ P') (hi : innerLanes size (lanesAfter size P) = innerLanes size (lanesAfter size P')) :
    let b' := (List.range (sha3Rate size)).map (fun n => b.getD n 0#8 ^^^ laneByte (lanesAfter size P) n ^^^ laneByte (lanesAfter size P') n)
    P ++ b ≠ P' ++ b' ∧ ∀ suffix : List Byte, (P ++ b ++ suffix).length < 2 ^ 64 → (P' ++ b' ++ suffix).length < 2 ^ 64 →
      P ++ b ++ suffix ≠ P' ++ b' ++ suffix ∧ sha3Digest size (P ++ b ++ suffix) = sha3Digest size (P' ++ b' ++ suffix) := by
  intro b'
  obtain ⟨r0, r1, r8, -, -⟩ := rates h
  have hb' : b'.length = sha3Rate size := by rw [List.length_map, List.length_range]
  have ne : P ++ b ≠ P' ++ b' := fun e => hne (List.append_inj' e (by rw [hb, hb'])).1
  have st : lanesAfter size (P ++ b) = lanesAfter size (P' ++ b') := by
    rw [block_step h P P' b b' hP hP' hb hb']
    intro j hj
    by_cases hr : j < 8 * sha3Rate size
    · have hbit : byteBit b' j = (byteBit b j ^^ ((lanesAfter size P).getD (j / 64) 0#64).getLsbD (j % 64) ^^ ((lanesAfter size P').getD (j / 64) 0#64).getLsbD (j % 64)) := by
        have lb : ∀ s : List U64, (laneByte s (j / 8)).getLsbD (j % 8) = (s.getD (j / 64) 0#64).getLsbD (j % 64) := fun s => by
          rw [laneByte, BitVec.getLsbD_setWidth, BitVec.getLsbD_ushiftRight, show j / 8 / 8 = j / 64 by omega, show 8 * (j / 8 % 8) + j % 8 = j % 64 by omega]
          have : j % 8 < 8 := Nat.mod_lt _ (by omega)
          simp [this]
        rw [byteBit, List.getD_eq_getElem?_getD, List.getElem?_map, List.getElem?_range (by omega), Option.map_some, Option.getD_some, BitVec.getLsbD_xor,
          BitVec.getLsbD_xor, lb, lb, byteBit]
      rw [hbit]
      generalize byteBit b j = u
      generalize ((lanesAfter size P).getD (j / 64) 0#64).getLsbD (j % 64) = v
      generalize ((lanesAfter size P').getD (j / 64) 0#64).getLsbD (j % 64) = w
      cases u <;> cases v <;> cases w <;> rfl
    · rw [byteBit_beyond (by omega), byteBit_beyond (by omega), Bool.xor_false, Bool.xor_false]
      exact (inner_bits h (lanesAfter_length _ _) (lanesAfter_length _ _)).mp hi j (by omega) hj
  refine ⟨ne, fun suffix l1 l2 => ⟨fun e => ne (List.append_cancel_right e), ?_⟩⟩
  have d1 : sha3Rate size ∣ (P ++ b).length := by rw [List.length_append, hb]; exact Nat.dvd_add hP (dvd_refl _)
  have d2 : sha3Rate size ∣ (P' ++ b').length := by rw [List.length_append, hb']; exact Nat.dvd_add hP' (dvd_refl _)
  have s1 : lanesAfter size (P ++ b ++ suffix) = lanesAfter size (P' ++ b' ++ suffix) := by
    rw [lanesAfter_append size r0 _ suffix d1, lanesAfter_append size r0 _ suffix d2, st]
  have off : ∀ x : List Byte, sha3Rate size ∣ x.length → (x ++ suffix).length < 2 ^ 64 →
      (Sha3State.new.add size (x ++ suffix)).msglength.toNat % sha3Rate size = suffix.length % sha3Rate size := by
    intro x hx hl
    show (0#64 + BitVec.ofNat 64 (x ++ suffix).length).toNat % _ = _
    rw [BitVec.zero_add, BitVec.toNat_ofNat, Nat.mod_eq_of_lt hl, List.length_append, Nat.add_mod, Nat.mod_eq_zero_of_dvd hx, Nat.zero_add, Nat.mod_mod]
  rw [sha3Digest, sha3Digest, Sha3State.data, Sha3State.data]
  simp only [off _ d1 l1, off _ d2 l2]
  rw [show (Sha3State.new.add size (P ++ b ++ suffix)).s = (Sha3State.new.add size (P' ++ b' ++ suffix)).s from s1]

/-- Two different sequences of three blocks with the same inner lanes exist, for every size. -/
theorem C150_exists (size : Nat) (h : size ∈ [224, 256, 384, 512]) : ∃ P P' : List Byte, P.length = 3 * sha3Rate size ∧ P'.length = 3 * sha3Rate size ∧ P ≠ P' ∧
    innerLanes size (lanesAfter size P) = innerLanes size (lanesAfter size P') := by
  have hr : 200 < 3 * sha3Rate size := by
    simp only [List.mem_cons, List.not_mem_nil, or_false] at h
    rcases h with rfl | rfl | rfl | rfl <;> decide
  let msg : (Fin (3 * sha3Rate size) → Fin 256) → List Byte := fun f => List.ofFn fun i => BitVec.ofFin (f i)
  let st : (Fin (3 * sha3Rate size) → Fin 256) → (Fin 25 → Fin (2 ^ 64)) := fun f i => ((lanesAfter size (msg f)).getD i.val 0#64).toFin
  have hc : Fintype.card (Fin 25 → Fin (2 ^ 64)) < Fintype.card (Fin (3 * sha3Rate size) → Fin 256) := by
    rw [Fintype.card_fun, Fintype.card_fun, Fintype.card_fin, Fintype.card_fin, Fintype.card_fin, Fintype.card_fin, show (256 : Nat) = 2 ^ 8 from rfl, ← pow_mul, ← pow_mul]
    exact Nat.pow_lt_pow_right (by decide) (by omega)
  obtain ⟨f, g, hne, he⟩ := Fintype.exists_ne_map_eq_of_card_lt st hc
  refine ⟨msg f, msg g, List.length_ofFn, List.length_ofFn, fun e => hne ?_, ?_⟩
  · funext i
    have := congrFun (List.ofFn_injective e) i
    exact BitVec.ofFin.inj this
  · congr 1
    apply List.ext_getElem (by rw [lanesAfter_length, lanesAfter_length])
    intro i h1 h2
    have hi : i < 25 := by rwa [lanesAfter_length] at h1
    have := congrFun he ⟨i, hi⟩
    simp only [st, List.getD_eq_getElem _ _ h1, List.getD_eq_getElem _ _ h2] at this
    exact BitVec.eq_of_toFin_eq this

/-- The hypotheses of `C150_build` can be met, and those of `C150_collision` and `C150_states` as well: messages of four blocks collide in SHA3-256. -/
example : ∃ P P' b b' : List Byte, sha3Rate 256 ∣ P.length ∧ sha3Rate 256 ∣ P'.length ∧ b.length = sha3Rate 256 ∧ P ++ b ≠ P' ++ b' ∧
    (P ++ b).length = 544 ∧ sha3Digest 256 (P ++ b ++ ascii "x") = sha3Digest 256 (P' ++ b' ++ ascii "x") := by
  obtain ⟨P, P', h1, h2, hne, hi⟩ := C150_exists 256 (by decide)
  obtain ⟨n, hs⟩ := C150_build 256 (by decide) P P' (List.replicate 136 0#8) (by rw [h1]; decide) (by rw [h2]; decide) List.length_replicate hne hi
  refine ⟨P, P', _, _, by rw [h1]; decide, by rw [h2]; decide, List.length_replicate, n, by rw [List.length_append, h1, List.length_replicate]; decide, (hs (ascii "x") ?_ ?_).2⟩
  · rw [List.length_append, List.length_append, h1, List.length_replicate]; decide +kernel
  · rw [List.length_append, List.length_append, h2, List.length_map, List.length_range]; decide +kernel

/-- A state with three blocks absorbed, and what is shown of it. -/
example : padded3 256 (ascii "abc") = ascii "abc" ++ [0x06#8] ++ List.replicate 131 0#8 ++ [0x80#8] := by decide +kernel

end Verif.Props
