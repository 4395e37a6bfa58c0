import Verif.Props.ChaCha20
import Verif.Props.FixedPoint
import Mathlib.Data.Vector.Basic
import Mathlib.Data.Fintype.Vector

/-! C152: what the rounds of ChaCha20 keep. -/

namespace Verif.Props
open Verif Verif.Model Verif.Proof Verif.Proof.Cc Verif.Spec.ChaCha

/-- The ten passes of the loop of `GenerateBlock` (include/caligo/chacha20.h:40-80): the words before the final addition. -/
def ccRounds (s : List U32) : List U32 := (List.range 10).foldl (fun s _ => ccDouble s) s

theorem rotl_inj32 (r : Nat) (hr : r < 32) {x y : U32} (h : x.rotateLeft r = y.rotateLeft r) : x = y := by
  have h2 := congrArg (fun v => BitVec.rotateRight v r) h
  apply BitVec.eq_of_getLsbD_eq
  intro i hi
  have e := congrArg (fun v => v.getLsbD ((i + r) % 32)) h
  simp only [BitVec.getLsbD_rotateLeft_of_le hr] at e
  have hlt : (i + r) % 32 < 32 := Nat.mod_lt _ (by omega)
  by_cases hc : (i + r) % 32 < r
  · rw [cond_eq_if, cond_eq_if] at e
    simp only [hc, decide_true, if_true] at e
    rwa [show 32 - r + (i + r) % 32 = i by omega] at e
  · rw [cond_eq_if, cond_eq_if] at e
    simp only [hc, decide_false, hlt, decide_true, Bool.true_and] at e
    rwa [if_neg (by simp), if_neg (by simp), show (i + r) % 32 - r = i by omega] at e

theorem rep_self {l : List U32} (h : l.length = 16) : Rep l (fun i => l.getD i 0#32) := ⟨h, fun _ _ => rfl⟩

theorem half_length {l : List U32} (h : l.length = 16) (a b d r : Nat) : (ccHalf l a b d r).length = 16 := by
  unfold ccHalf; simp only [List.length_set, h]

theorem half_inj {l l' : List U32} (h : l.length = 16) (h' : l'.length = 16) {a b d r : Nat} (ha : a < 16) (hb : b < 16) (hd : d < 16) (had : a ≠ d) (hba : b ≠ a)
    (hbd : b ≠ d) (hr : r < 32) (e : ccHalf l a b d r = ccHalf l' a b d r) : l = l' := by
  have r1 := (rep_half (rep_self h) ha hb hd had hr).2
  have r2 := (rep_half (rep_self h') ha hb hd had hr).2
  rw [← e] at r2
  have key : ∀ i < 16, Function.update (Function.update (fun i => l.getD i 0#32) a (l.getD a 0#32 + l.getD b 0#32)) d ((l.getD d 0#32 ^^^ (l.getD a 0#32 + l.getD b 0#32)).rotateLeft r) i =
      Function.update (Function.update (fun i => l'.getD i 0#32) a (l'.getD a 0#32 + l'.getD b 0#32)) d ((l'.getD d 0#32 ^^^ (l'.getD a 0#32 + l'.getD b 0#32)).rotateLeft r) i :=
    fun i hi => (r1 i hi).symm.trans (r2 i hi)
  have kb := key b hb
  rw [Function.update_of_ne hbd, Function.update_of_ne hba, Function.update_of_ne hbd, Function.update_of_ne hba] at kb
  have ka := key a ha
  rw [Function.update_of_ne had, Function.update_self, Function.update_of_ne had, Function.update_self] at ka
  have kd := key d hd
  rw [Function.update_self, Function.update_self, ka] at kd
  have kd := (BitVec.xor_left_inj _).mp (rotl_inj32 r hr kd)
  rw [kb] at ka
  have ka := BitVec.add_left_inj _ |>.mp ka
  refine list_ext_getD 0#32 (by rw [h, h']) fun i hi => ?_
  rw [h] at hi
  by_cases h1 : i = d
  · rw [h1]; exact kd
  · by_cases h2 : i = a
    · rw [h2]; exact ka
    · have := key i hi
      rwa [Function.update_of_ne h1, Function.update_of_ne h2, Function.update_of_ne h1, Function.update_of_ne h2] at this

theorem quarter_length {l : List U32} (h : l.length = 16) (a b c d : Nat) : (ccQuarter l a b c d).length = 16 :=
  half_length (half_length (half_length (half_length h _ _ _ _) _ _ _ _) _ _ _ _) _ _ _ _

theorem quarter_inj {l l' : List U32} (h : l.length = 16) (h' : l'.length = 16) {a b c d : Nat} (ha : a < 16) (hb : b < 16) (hc : c < 16) (hd : d < 16)
    (hab : a ≠ b) (had : a ≠ d) (hbc : b ≠ c) (hbd : b ≠ d) (hcd : c ≠ d) (e : ccQuarter l a b c d = ccQuarter l' a b c d) : l = l' := by
  unfold ccQuarter at e
  have n1 := fun {l : List U32} (h : l.length = 16) => half_length h a b d 16
  have n2 := fun {l : List U32} (h : l.length = 16) => half_length h c d b 12
  have n3 := fun {l : List U32} (h : l.length = 16) => half_length h a b d 8
  exact half_inj h h' ha hb hd had hab.symm hbd (by omega) (half_inj (n1 h) (n1 h') hc hd hb hbc.symm hcd.symm hbd.symm (by omega)
    (half_inj (n2 (n1 h)) (n2 (n1 h')) ha hb hd had hab.symm hbd (by omega) (half_inj (n3 (n2 (n1 h))) (n3 (n2 (n1 h'))) hc hd hb hbc.symm hcd.symm hbd.symm (by omega) e)))

/-- The four words that a quarter round makes of four words. -/
def qPart (n : Nat) (a b c d : U32) : U32 := (ccQuarter [a, b, c, d] 0 1 2 3).getD n 0#32

theorem quarter_words1 (x0 x1 x2 x3 x4 x5 x6 x7 x8 x9 x10 x11 x12 x13 x14 x15 : U32) : ccQuarter [x0, x1, x2, x3, x4, x5, x6, x7, x8, x9, x10, x11, x12, x13, x14, x15] 0 4 8 12 =
    [qPart 0 x0 x4 x8 x12, x1, x2, x3, qPart 1 x0 x4 x8 x12, x5, x6, x7, qPart 2 x0 x4 x8 x12, x9, x10, x11, qPart 3 x0 x4 x8 x12, x13, x14, x15] := by
  simp only [qPart, ccQuarter, ccHalf, List.set_cons_zero, List.set_cons_succ, List.getD_cons_zero, List.getD_cons_succ]

theorem quarter_words2 (x0 x1 x2 x3 x4 x5 x6 x7 x8 x9 x10 x11 x12 x13 x14 x15 : U32) : ccQuarter [x0, x1, x2, x3, x4, x5, x6, x7, x8, x9, x10, x11, x12, x13, x14, x15] 1 5 9 13 =
    [x0, qPart 0 x1 x5 x9 x13, x2, x3, x4, qPart 1 x1 x5 x9 x13, x6, x7, x8, qPart 2 x1 x5 x9 x13, x10, x11, x12, qPart 3 x1 x5 x9 x13, x14, x15] := by
  simp only [qPart, ccQuarter, ccHalf, List.set_cons_zero, List.set_cons_succ, List.getD_cons_zero, List.getD_cons_succ]

theorem quarter_words3 (x0 x1 x2 x3 x4 x5 x6 x7 x8 x9 x10 x11 x12 x13 x14 x15 : U32) : ccQuarter [x0, x1, x2, x3, x4, x5, x6, x7, x8, x9, x10, x11, x12, x13, x14, x15] 2 6 10 14 =
    [x0, x1, qPart 0 x2 x6 x10 x14, x3, x4, x5, qPart 1 x2 x6 x10 x14, x7, x8, x9, qPart 2 x2 x6 x10 x14, x11, x12, x13, qPart 3 x2 x6 x10 x14, x15] := by
  simp only [qPart, ccQuarter, ccHalf, List.set_cons_zero, List.set_cons_succ, List.getD_cons_zero, List.getD_cons_succ]

theorem quarter_words4 (x0 x1 x2 x3 x4 x5 x6 x7 x8 x9 x10 x11 x12 x13 x14 x15 : U32) : ccQuarter [x0, x1, x2, x3, x4, x5, x6, x7, x8, x9, x10, x11, x12, x13, x14, x15] 3 7 11 15 =
    [x0, x1, x2, qPart 0 x3 x7 x11 x15, x4, x5, x6, qPart 1 x3 x7 x11 x15, x8, x9, x10, qPart 2 x3 x7 x11 x15, x12, x13, x14, qPart 3 x3 x7 x11 x15] := by
  simp only [qPart, ccQuarter, ccHalf, List.set_cons_zero, List.set_cons_succ, List.getD_cons_zero, List.getD_cons_succ]

theorem quarter_words5 (x0 x1 x2 x3 x4 x5 x6 x7 x8 x9 x10 x11 x12 x13 x14 x15 : U32) : ccQuarter [x0, x1, x2, x3, x4, x5, x6, x7, x8, x9, x10, x11, x12, x13, x14, x15] 0 5 10 15 =
    [qPart 0 x0 x5 x10 x15, x1, x2, x3, x4, qPart 1 x0 x5 x10 x15, x6, x7, x8, x9, qPart 2 x0 x5 x10 x15, x11, x12, x13, x14, qPart 3 x0 x5 x10 x15] := by
  simp only [qPart, ccQuarter, ccHalf, List.set_cons_zero, List.set_cons_succ, List.getD_cons_zero, List.getD_cons_succ]

theorem quarter_words6 (x0 x1 x2 x3 x4 x5 x6 x7 x8 x9 x10 x11 x12 x13 x14 x15 : U32) : ccQuarter [x0, x1, x2, x3, x4, x5, x6, x7, x8, x9, x10, x11, x12, x13, x14, x15] 1 6 11 12 =
    [x0, qPart 0 x1 x6 x11 x12, x2, x3, x4, x5, qPart 1 x1 x6 x11 x12, x7, x8, x9, x10, qPart 2 x1 x6 x11 x12, qPart 3 x1 x6 x11 x12, x13, x14, x15] := by
  simp only [qPart, ccQuarter, ccHalf, List.set_cons_zero, List.set_cons_succ, List.getD_cons_zero, List.getD_cons_succ]

theorem quarter_words7 (x0 x1 x2 x3 x4 x5 x6 x7 x8 x9 x10 x11 x12 x13 x14 x15 : U32) : ccQuarter [x0, x1, x2, x3, x4, x5, x6, x7, x8, x9, x10, x11, x12, x13, x14, x15] 2 7 8 13 =
    [x0, x1, qPart 0 x2 x7 x8 x13, x3, x4, x5, x6, qPart 1 x2 x7 x8 x13, qPart 2 x2 x7 x8 x13, x9, x10, x11, x12, qPart 3 x2 x7 x8 x13, x14, x15] := by
  simp only [qPart, ccQuarter, ccHalf, List.set_cons_zero, List.set_cons_succ, List.getD_cons_zero, List.getD_cons_succ]

theorem quarter_words8 (x0 x1 x2 x3 x4 x5 x6 x7 x8 x9 x10 x11 x12 x13 x14 x15 : U32) : ccQuarter [x0, x1, x2, x3, x4, x5, x6, x7, x8, x9, x10, x11, x12, x13, x14, x15] 3 4 9 14 =
    [x0, x1, x2, qPart 0 x3 x4 x9 x14, qPart 1 x3 x4 x9 x14, x5, x6, x7, x8, qPart 2 x3 x4 x9 x14, x10, x11, x12, x13, qPart 3 x3 x4 x9 x14, x15] := by
  simp only [qPart, ccQuarter, ccHalf, List.set_cons_zero, List.set_cons_succ, List.getD_cons_zero, List.getD_cons_succ]

attribute [local irreducible] ccQuarter

/-- A double round on four equal columns. -/
theorem columns_double (a b c d : U32) : ∃ a' b' c' d', ccDouble [a, a, a, a, b, b, b, b, c, c, c, c, d, d, d, d] = [a', a', a', a', b', b', b', b', c', c', c', c', d', d', d', d'] := by
  unfold ccDouble
  simp only [quarter_words1, quarter_words2, quarter_words3, quarter_words4, quarter_words5, quarter_words6, quarter_words7, quarter_words8]
  exact ⟨_, _, _, _, rfl⟩

theorem double_length {l : List U32} (h : l.length = 16) : (ccDouble l).length = 16 := by
  unfold ccDouble
  exact quarter_length (quarter_length (quarter_length (quarter_length (quarter_length (quarter_length (quarter_length (quarter_length h _ _ _ _) _ _ _ _) _ _ _ _) _ _ _ _) _ _ _ _) _ _ _ _) _ _ _ _) _ _ _ _

theorem double_inj {l l' : List U32} (h : l.length = 16) (h' : l'.length = 16) (e : ccDouble l = ccDouble l') : l = l' := by
  unfold ccDouble at e
  have q := fun {a b c d : Nat} {l : List U32} (h : l.length = 16) => quarter_length h a b c d
  have s8 := quarter_inj (q (q (q (q (q (q (q h))))))) (q (q (q (q (q (q (q h'))))))) (by decide) (by decide) (by decide) (by decide) (by decide) (by decide) (by decide) (by decide) (by decide) e
  have s7 := quarter_inj (q (q (q (q (q (q h)))))) (q (q (q (q (q (q h')))))) (by decide) (by decide) (by decide) (by decide) (by decide) (by decide) (by decide) (by decide) (by decide) s8
  have s6 := quarter_inj (q (q (q (q (q h))))) (q (q (q (q (q h'))))) (by decide) (by decide) (by decide) (by decide) (by decide) (by decide) (by decide) (by decide) (by decide) s7
  have s5 := quarter_inj (q (q (q (q h)))) (q (q (q (q h')))) (by decide) (by decide) (by decide) (by decide) (by decide) (by decide) (by decide) (by decide) (by decide) s6
  have s4 := quarter_inj (q (q (q h))) (q (q (q h'))) (by decide) (by decide) (by decide) (by decide) (by decide) (by decide) (by decide) (by decide) (by decide) s5
  have s3 := quarter_inj (q (q h)) (q (q h')) (by decide) (by decide) (by decide) (by decide) (by decide) (by decide) (by decide) (by decide) (by decide) s4
  have s2 := quarter_inj (q h) (q h') (by decide) (by decide) (by decide) (by decide) (by decide) (by decide) (by decide) (by decide) (by decide) s3
  exact quarter_inj h h' (by decide) (by decide) (by decide) (by decide) (by decide) (by decide) (by decide) (by decide) (by decide) s2

attribute [local irreducible] ccDouble

theorem passes_length (n : Nat) {l : List U32} (h : l.length = 16) : ((List.range n).foldl (fun s _ => ccDouble s) l).length = 16 := by
  induction n with
  | zero => exact h
  | succ n ih => rw [List.range_succ, List.foldl_append]; exact double_length ih

theorem passes_inj (n : Nat) {l l' : List U32} (h : l.length = 16) (h' : l'.length = 16)
    (e : (List.range n).foldl (fun s _ => ccDouble s) l = (List.range n).foldl (fun s _ => ccDouble s) l') : l = l' := by
  induction n with
  | zero => exact e
  | succ n ih =>
    rw [List.range_succ, List.foldl_append, List.foldl_append] at e
    exact ih (double_inj (passes_length n h) (passes_length n h') e)

theorem rounds_length {l : List U32} (h : l.length = 16) : (ccRounds l).length = 16 := passes_length 10 h

/-- C152: the rounds lose nothing and leave nothing out: every sixteen words are the result of the rounds for exactly one sixteen words. -/
theorem C152_rounds (t : List U32) (ht : t.length = 16) : ∃! s : List U32, s.length = 16 ∧ ccRounds s = t := by
  let g : List.Vector U32 16 → List.Vector U32 16 := fun s => ⟨ccRounds s.1, rounds_length s.2⟩
  have hg : Function.Injective g := fun a b hab => Subtype.ext (passes_inj 10 a.2 b.2 (congrArg Subtype.val hab))
  obtain ⟨s, hs⟩ := (Finite.injective_iff_surjective.mp hg) ⟨t, ht⟩
  have e : ccRounds s.1 = t := congrArg Subtype.val hs
  exact ⟨s.1, ⟨s.2, e⟩, fun u hu => passes_inj 10 hu.1 s.2 (hu.2.trans e.symm)⟩

/-- A case that meets the hypotheses of `C152_rounds`. -/
example := C152_rounds (List.replicate 16 7#32) rfl

theorem leNumber_lt : ∀ l : List Byte, leNumber l < 256 ^ l.length
  | [] => by decide
  | b :: r => by
    have := leNumber_lt r
    have hb : b.toNat < 256 := b.isLt
    rw [leNumber, List.length_cons, Nat.pow_succ]
    omega

theorem leNumber_inj : ∀ l l' : List Byte, l.length = l'.length → leNumber l = leNumber l' → l = l'
  | [], [], _, _ => rfl
  | b :: r, b' :: r', hl, h => by
    have hb : b.toNat < 256 := b.isLt
    have hb' : b'.toNat < 256 := b'.isLt
    rw [leNumber, leNumber] at h
    obtain ⟨h1, h2⟩ : b.toNat = b'.toNat ∧ leNumber r = leNumber r' := by omega
    rw [BitVec.eq_of_toNat_eq h1, leNumber_inj r r' (by simpa using hl) h2]

theorem words_bytes {v v' : List Byte} (hl : v.length = v'.length) (n : Nat) (hn : v.length = 4 * n) (h : ∀ i < n, leWordAt v i = leWordAt v' i) : v = v' := by
  refine list_ext_getD 0#8 hl fun j hj => ?_
  have e := h (j / 4) (by omega)
  have l1 : ((v.drop (4 * (j / 4))).take 4).length = 4 := by rw [List.length_take, List.length_drop]; omega
  have l2 : ((v'.drop (4 * (j / 4))).take 4).length = 4 := by rw [List.length_take, List.length_drop]; omega
  have b1 := leNumber_lt ((v.drop (4 * (j / 4))).take 4)
  have b2 := leNumber_lt ((v'.drop (4 * (j / 4))).take 4)
  rw [l1] at b1
  rw [l2] at b2
  have e := congrArg BitVec.toNat e
  rw [leWordAt, leWordAt, BitVec.toNat_ofNat, BitVec.toNat_ofNat, Nat.mod_eq_of_lt (by omega), Nat.mod_eq_of_lt (by omega)] at e
  have e := congrArg (fun l => l.getD (j % 4) 0#8) (leNumber_inj _ _ (by rw [l1, l2]) e)
  simp only [List.getD_eq_getElem?_getD, List.getElem?_take, List.getElem?_drop] at e ⊢
  rwa [if_pos (by omega), if_pos (by omega), show 4 * (j / 4) + j % 4 = j by omega] at e

/-- The sixteen words that section 2.3 of RFC 8439 puts into the state. -/
def inputWords (key : List Byte) (c : U32) (nonce : List Byte) : List U32 := (List.range 16).map (initial key c nonce)

theorem inputWords_length (key : List Byte) (c : U32) (nonce : List Byte) : (inputWords key c nonce).length = 16 := by rw [inputWords, List.length_map, List.length_range]

/-- C152: blocks made from different keys, counters or nonces have different words before the final addition. -/
theorem C152_distinct (key key' nonce nonce' : List Byte) (c c' : U32) (hk : key.length = 32) (hk' : key'.length = 32) (hn : nonce.length = 12) (hn' : nonce'.length = 12)
    (h : ccRounds (inputWords key c nonce) = ccRounds (inputWords key' c' nonce')) : key = key' ∧ c = c' ∧ nonce = nonce' := by
  have e := passes_inj 10 (inputWords_length _ _ _) (inputWords_length _ _ _) h
  have w : ∀ i < 16, initial key c nonce i = initial key' c' nonce' i := by
    intro i hi
    have := congrArg (fun l => l[i]?) e
    simpa [inputWords, List.getElem?_range hi] using this
  refine ⟨words_bytes (by omega) 8 (by omega) fun i hi => ?_, ?_, words_bytes (by omega) 3 (by omega) fun i hi => ?_⟩
  · have := w (4 + i) (by omega)
    simp only [initial] at this
    rwa [if_neg (by omega), if_pos (by omega), if_neg (by omega), if_pos (by omega), show 4 + i - 4 = i by omega] at this
  · have := w 12 (by omega)
    simpa [initial] using this
  · have := w (13 + i) (by omega)
    simp only [initial] at this
    rwa [if_neg (by omega), if_neg (by omega), if_neg (by omega), if_neg (by omega), if_neg (by omega), if_neg (by omega), show 13 + i - 13 = i by omega] at this

/-- The object: its state before a block of the key stream is made are these words, and the block is the sum of them and of the result of the rounds. So whoever knows
the block, the counter and the nonce knows words 0 to 3 and 12 to 15 of the result, and nothing but the addition of the key keeps the other words secret. -/
theorem C152_block (key nonce : List Byte) (c : U32) (g : ChaCha20) (hg : g.state = inputWords key c nonce) (hb : g.buffer.length = 64) :
    (ccGenerate g).buffer = (List.range 16).flatMap (fun i => serializeWord ((ccRounds (inputWords key c nonce)).getD i 0#32 + (inputWords key c nonce).getD i 0#32)) ∧
    (ccGenerate g).state = inputWords key (c + 1#32) nonce := by
  have hr : Rep g.state (fun i => g.state.getD i 0#32) := rep_self (by rw [hg, inputWords_length])
  constructor
  · rw [generate_buffer hr hb]
    apply List.flatMap_congr
    intro i hi
    have := (rep_rounds hr 10).2 i (List.mem_range.mp hi)
    rw [← this, hg]
    rfl
  · show g.state.set 12 (g.state.getD 12 0#32 + 1#32) = _
    rw [hg]
    refine list_ext_getD 0#32 (by rw [List.length_set, inputWords_length, inputWords_length]) fun i hi => ?_
    rw [List.length_set, inputWords_length] at hi
    have g1 : ∀ c : U32, ∀ i < 16, (inputWords key c nonce).getD i 0#32 = initial key c nonce i := fun c i hi => by
      simp [inputWords, List.getD_eq_getElem?_getD, List.getElem?_range hi]
    rw [set_getD32 _ _ _ _ (by rw [inputWords_length]; decide), g1 _ _ hi, g1 _ 12 (by decide), g1 _ _ hi]
    by_cases h : i = 12
    · subst h; simp [initial]
    · rw [if_neg h]
      simp only [initial, if_neg h]

/-- A case that meets the hypotheses of `C152_block`. -/
example := C152_block (List.replicate 32 3#8) (List.replicate 12 4#8) 5#32 ⟨inputWords (List.replicate 32 3#8) 5#32 (List.replicate 12 4#8), List.replicate 64 0#8, 0⟩ rfl rfl

/-- Four equal columns. -/
def columns (a b c d : U32) : List U32 := [a, a, a, a, b, b, b, b, c, c, c, c, d, d, d, d]

/-- C152: the rounds keep four equal columns equal, so that on such states they work on 128 bits only; what prevents it is the constant in the first row: no key, counter
and nonce lead to such a state. -/
theorem C152_columns (n : Nat) (a b c d : U32) : ∃ a' b' c' d', (List.range n).foldl (fun s _ => ccDouble s) (columns a b c d) = columns a' b' c' d' := by
  induction n with
  | zero => exact ⟨a, b, c, d, rfl⟩
  | succ n ih =>
    obtain ⟨a1, b1, c1, d1, e⟩ := ih
    rw [List.range_succ, List.foldl_append, e]
    exact columns_double a1 b1 c1 d1

/-- C152: no key, counter and nonce lead to a state with four equal columns. -/
theorem C152_constants (key nonce : List Byte) (c a b d e : U32) : inputWords key c nonce ≠ columns a b d e := by
  intro h
  have h0 := congrArg (fun l => l[0]?) h
  have h1 := congrArg (fun l => l[1]?) h
  have e0 : initial key c nonce 0 = 0x61707865#32 := by show leWordAt (ascii "expand 32-byte k") 0 = _; decide +kernel
  have e1 : initial key c nonce 1 = 0x3320646e#32 := by show leWordAt (ascii "expand 32-byte k") 1 = _; decide +kernel
  simp only [inputWords, columns, List.getElem?_map, List.getElem?_range (show 0 < 16 by decide), List.getElem?_range (show 1 < 16 by decide), Option.map_some, e0, e1,
    List.getElem?_cons_zero, List.getElem?_cons_succ] at h0 h1
  injection h0 with h0
  injection h1 with h1
  rw [← h0] at h1
  exact absurd h1 (by decide)

/-- The keys, nonces and objects of the theorems exist: the vector of RFC 8439 section 2.3.2. -/
example : ((List.range 32).map (BitVec.ofNat 8)).length = 32 ∧ (unhex "000000090000004a00000000").length = 12 ∧ ∃ g : ChaCha20,
    g.state = inputWords ((List.range 32).map (BitVec.ofNat 8)) 1#32 (unhex "000000090000004a00000000") ∧ g.buffer.length = 64 :=
  ⟨by decide, by decide +kernel, ⟨⟨_, List.replicate 64 0#8, 0#8⟩, rfl, by simp⟩⟩

/-- The words before the final addition that RFC 8439 section 2.3.2 prints. -/
example : ccRounds (inputWords ((List.range 32).map (BitVec.ofNat 8)) 1#32 (unhex "000000090000004a00000000")) =
    [0x837778ab#32, 0xe238d763#32, 0xa67ae21e#32, 0x5950bb2f#32, 0xc4f2d0c7#32, 0xfc62bb2f#32, 0x8fa018fc#32, 0x3f5ec7b7#32,
     0x335271c2#32, 0xf29489f3#32, 0xeabda8fc#32, 0x82e46ebd#32, 0xd19c12b4#32, 0xb04e16de#32, 0x9e83d0cb#32, 0x4e3c50a2#32] := by decide +kernel

end Verif.Props
