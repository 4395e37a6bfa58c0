import Verif.Model.ChaCha20
import Verif.Spec.ChaCha20
import Verif.Proof.GcmCtr
import Verif.Proof.Words
import Mathlib.Tactic.IntervalCases

/-! ChaCha20: the list model computes the RFC 8439 functions. -/

namespace Verif.Proof.Cc
open Verif.Model Verif.Spec.ChaCha Verif.Proof

/-- The list holds the sixteen words. -/
def Rep (l : List U32) (s : State) : Prop := l.length = 16 ∧ ∀ i < 16, l.getD i 0#32 = s i

theorem set_getD32 (l : List U32) (n : Nat) (x : U32) (i : Nat) (h : n < l.length) :
    (l.set n x).getD i 0#32 = if i = n then x else l.getD i 0#32 := by
  by_cases hi : i = n
  · subst hi; simp [List.getD_eq_getElem?_getD, h]
  · simp [List.getD_eq_getElem?_getD, hi, List.getElem?_set, Ne.symm hi]

theorem rep_set {l : List U32} {s : State} (h : Rep l s) {n : Nat} (hn : n < 16) (x : U32) : Rep (l.set n x) (Function.update s n x) := by
  refine ⟨by rw [List.length_set]; exact h.1, fun i hi => ?_⟩
  rw [set_getD32 _ _ _ _ (by rw [h.1]; exact hn), Function.update_apply, h.2 i hi]

theorem rep_half {l : List U32} {s : State} (h : Rep l s) {a b d r : Nat} (ha : a < 16) (hb : b < 16) (hd : d < 16) (had : a ≠ d) (hr : r < 32) :
    Rep (ccHalf l a b d r) (Function.update (Function.update s a (s a + s b)) d ((s d ^^^ (s a + s b)).rotateLeft r)) := by
  have h1 := rep_set h ha (l.getD a 0#32 + l.getD b 0#32)
  rw [h.2 a ha, h.2 b hb] at h1
  have e1 := h1.2 a ha
  have e2 := h1.2 d hd
  rw [Function.update_self] at e1
  rw [Function.update_of_ne had.symm] at e2
  have h2 := rep_set h1 hd (s d ^^^ (s a + s b))
  have e3 := h2.2 d hd
  rw [Function.update_self] at e3
  have h3 := rep_set h2 hd ((s d ^^^ (s a + s b)).rotateLeft r)
  rw [Function.update_idem] at h3
  unfold ccHalf
  simp only [h.2 a ha, h.2 b hb, e1, e2, e3]
  rw [BitVec.rotateLeft_def, Nat.mod_eq_of_lt hr] at h3 ⊢
  exact h3

theorem rep_quarter {l : List U32} {s : State} (h : Rep l s) {a b c d : Nat} (ha : a < 16) (hb : b < 16) (hc : c < 16) (hd : d < 16)
    (hab : a ≠ b) (hac : a ≠ c) (had : a ≠ d) (hbc : b ≠ c) (hbd : b ≠ d) (hcd : c ≠ d) : Rep (ccQuarter l a b c d) (quarterRound s a b c d) := by
  have h1 := rep_half h ha hb hd had (r := 16) (by omega)
  have h2 := rep_half h1 hc hd hb hbc.symm (r := 12) (by omega)
  have h3 := rep_half h2 ha hb hd had (r := 8) (by omega)
  have h4 := rep_half h3 hc hd hb hbc.symm (r := 7) (by omega)
  unfold ccQuarter
  convert h4 using 1
  funext i
  simp only [quarterRound, QR, Function.update_apply, hab, hac, had, hbc, hbd, hcd, hab.symm, hac.symm, had.symm, hbc.symm, hbd.symm, hcd.symm, if_true, if_false]
  by_cases i1 : i = d
  · simp [i1, hbd.symm, hcd.symm]
  by_cases i2 : i = c
  · simp [i2, hbc.symm, hcd]
  by_cases i3 : i = b
  · simp [i3, hbc, hbd]
  by_cases i4 : i = a
  · simp [i4, hab, hac, had]
  simp [i1, i2, i3, i4]

theorem rep_double {l : List U32} {s : State} (h : Rep l s) : Rep (ccDouble l) (innerBlock s) := by
  have q {a b c d : Nat} {l : List U32} {s : State} (hd : a < 16 ∧ b < 16 ∧ c < 16 ∧ d < 16 ∧ a ≠ b ∧ a ≠ c ∧ a ≠ d ∧ b ≠ c ∧ b ≠ d ∧ c ≠ d) (h : Rep l s) :
      Rep (ccQuarter l a b c d) (quarterRound s a b c d) :=
    rep_quarter h hd.1 hd.2.1 hd.2.2.1 hd.2.2.2.1 hd.2.2.2.2.1 hd.2.2.2.2.2.1 hd.2.2.2.2.2.2.1 hd.2.2.2.2.2.2.2.1 hd.2.2.2.2.2.2.2.2.1 hd.2.2.2.2.2.2.2.2.2
  have h1 := q (a := 0) (b := 4) (c := 8) (d := 12) (by decide) h
  have h2 := q (a := 1) (b := 5) (c := 9) (d := 13) (by decide) h1
  have h3 := q (a := 2) (b := 6) (c := 10) (d := 14) (by decide) h2
  have h4 := q (a := 3) (b := 7) (c := 11) (d := 15) (by decide) h3
  have h5 := q (a := 0) (b := 5) (c := 10) (d := 15) (by decide) h4
  have h6 := q (a := 1) (b := 6) (c := 11) (d := 12) (by decide) h5
  have h7 := q (a := 2) (b := 7) (c := 8) (d := 13) (by decide) h6
  have h8 := q (a := 3) (b := 4) (c := 9) (d := 14) (by decide) h7
  exact h8

theorem rep_rounds {l : List U32} {s : State} (h : Rep l s) (n : Nat) :
    Rep ((List.range n).foldl (fun s _ => ccDouble s) l) (innerBlock^[n] s) := by
  induction n with
  | zero => exact h
  | succ n ih =>
    rw [List.range_succ, List.foldl_append, Function.iterate_succ_apply', List.foldl_cons, List.foldl_nil]
    exact rep_double ih

/-- The inner loop of the output loop. -/
theorem store4 (buffer : List Byte) (w : U32) (n : Nat) (hn : n < 16) (hb : buffer.length = 64) :
    ([0, 8, 16, 24].foldl (fun buffer c => buffer.set (n * 4 + c / 8) ((w >>> c).setWidth 8)) buffer).length = 64 ∧
    ∀ i, ([0, 8, 16, 24].foldl (fun buffer c => buffer.set (n * 4 + c / 8) ((w >>> c).setWidth 8)) buffer).getD i 0#8 =
      if i / 4 = n then (serializeWord w).getD (i % 4) 0#8 else buffer.getD i 0#8 := by
  have hs : serializeWord w = [(w >>> 0).setWidth 8, (w >>> 8).setWidth 8, (w >>> 16).setWidth 8, (w >>> 24).setWidth 8] := by
    have : ∀ j, BitVec.ofNat 8 (w.toNat / 256 ^ j) = (w >>> (8 * j)).setWidth 8 := by
      intro j
      apply BitVec.eq_of_toNat_eq
      rw [BitVec.toNat_setWidth, BitVec.toNat_ushiftRight, BitVec.toNat_ofNat, Nat.shiftRight_eq_div_pow, Nat.pow_mul]
    simp only [serializeWord, List.range, List.range.loop, List.map, this]
  simp only [List.foldl, List.length_set, hb, true_and]
  intro i
  rw [set_getD _ _ _ _ (by simp [hb]; omega), set_getD _ _ _ _ (by simp [hb]; omega), set_getD _ _ _ _ (by simp [hb]; omega),
    set_getD _ _ _ _ (by simp [hb]; omega), hs]
  by_cases h : i / 4 = n
  · rw [if_pos h]
    have h4 : i = n * 4 + 0 ∨ i = n * 4 + 1 ∨ i = n * 4 + 2 ∨ i = n * 4 + 3 := by omega
    rcases h4 with rfl | rfl | rfl | rfl
    · simp
    · simp [Nat.add_mod, Nat.mul_mod_left]
    · simp [Nat.add_mod, Nat.mul_mod_left]
    · simp [Nat.add_mod, Nat.mul_mod_left]
  · rw [if_neg h, if_neg (by omega), if_neg (by omega), if_neg (by omega), if_neg (by omega)]

theorem store_inv {l st : List U32} {t s : State} (hl : Rep l t) (hs : Rep st s) (buffer : List Byte) (hb : buffer.length = 64) (n : Nat) (hn : n ≤ 16) :
    ∀ p, p = (List.range n).foldl (ccStore st) (l, buffer) →
    p.1.length = 16 ∧ (∀ i, n ≤ i → p.1.getD i 0#32 = l.getD i 0#32) ∧ p.2.length = 64 ∧
    ∀ i < 4 * n, p.2.getD i 0#8 = (serializeWord (t (i / 4) + s (i / 4))).getD (i % 4) 0#8 := by
  induction n with
  | zero => rintro p rfl; exact ⟨hl.1, fun i _ => rfl, hb, fun i hi => by omega⟩
  | succ n ih =>
    obtain ⟨h1, h2, h3, h4⟩ := ih (by omega) _ rfl
    simp only [List.range_succ, List.foldl_append, List.foldl_cons, List.foldl_nil]
    rintro q rfl
    generalize (List.range n).foldl (ccStore st) (l, buffer) = p at h1 h2 h3 h4
    have e : (p.1.set n (p.1.getD n 0#32 + st.getD n 0#32)).getD n 0#32 = t n + s n := by
      rw [set_getD32 _ _ _ _ (by omega), if_pos rfl, h2 n (le_refl n), hl.2 n (by omega), hs.2 n (by omega)]
    unfold ccStore
    simp only [e]
    obtain ⟨s1, s2⟩ := store4 p.2 (t n + s n) n (by omega) h3
    refine ⟨by rw [List.length_set]; exact h1, fun i hi => ?_, s1, fun i hi => ?_⟩
    · rw [set_getD32 _ _ _ _ (by omega), if_neg (by omega)]; exact h2 i (by omega)
    · rw [s2]
      by_cases hin : i / 4 = n
      · rw [if_pos hin, hin]
      · rw [if_neg hin]; exact h4 i (by omega)

theorem serializeWord_length (w : U32) : (serializeWord w).length = 4 := by simp [serializeWord]

theorem flatMap_getD (f : Nat → List Byte) (k : Nat) (hk : 0 < k) (hf : ∀ i, (f i).length = k) (n i : Nat) (hi : i < n * k) :
    ((List.range n).flatMap f).length = n * k ∧ ((List.range n).flatMap f).getD i 0#8 = (f (i / k)).getD (i % k) 0#8 := by
  have hlen : ∀ n, ((List.range n).flatMap f).length = n * k := by
    intro n
    induction n with
    | zero => simp
    | succ n ih => rw [List.range_succ, List.flatMap_append, List.length_append, ih]; simp [hf, Nat.succ_mul]
  refine ⟨hlen n, ?_⟩
  induction n with
  | zero => omega
  | succ n ih =>
    rw [List.range_succ, List.flatMap_append]
    by_cases h : i < n * k
    · rw [List.getD_append _ _ _ _ (by rw [hlen]; exact h)]; exact ih h
    · rw [List.getD_append_right _ _ _ _ (by rw [hlen]; omega), hlen]
      have h1 : i / k = n := by
        rw [Nat.succ_mul] at hi
        exact Nat.div_eq_of_lt_le (by omega) (by rw [Nat.succ_mul]; omega)
      have h2 : i % k = i - n * k := by
        have := Nat.div_add_mod i k
        rw [h1, Nat.mul_comm] at this; omega
      simp [h1, h2]

/-- `GenerateBlock` puts into the buffer the serialized sum of the state and the permuted state. -/
theorem generate_buffer {g : ChaCha20} {s : State} (hs : Rep g.state s) (hb : g.buffer.length = 64) :
    (ccGenerate g).buffer = (List.range 16).flatMap (fun i => serializeWord ((innerBlock^[10] s) i + s i)) := by
  have e : (ccGenerate g).buffer = ((List.range 16).foldl (ccStore g.state) ((List.range 10).foldl (fun s _ => ccDouble s) g.state, g.buffer)).2 := by rw [ccGenerate]
  obtain ⟨_, _, h3, h4⟩ := store_inv (rep_rounds hs 10) hs g.buffer hb 16 (le_refl _) _ rfl
  rw [e]
  generalize (List.range 16).foldl (ccStore g.state) ((List.range 10).foldl (fun s _ => ccDouble s) g.state, g.buffer) = p at h3 h4
  generalize innerBlock^[10] s = t at h4
  refine list_ext_getD 0#8 ?_ (fun i hi => ?_)
  · rw [(flatMap_getD _ 4 (by omega) (fun i => serializeWord_length _) 16 0 (by omega)).1]; exact h3
  · rw [h3] at hi
    rw [(flatMap_getD _ 4 (by omega) (fun i => serializeWord_length _) 16 i (by omega)).2]
    exact h4 i (by omega)

theorem block_length (key nonce : List Byte) (c : U32) : (block key c nonce).length = 64 :=
  (flatMap_getD _ 4 (by omega) (fun _ => serializeWord_length _) 16 0 (by omega)).1

/-- The object holds block `c` and has used `o` bytes of it; its state is ready for the next block. -/
structure At (key nonce : List Byte) (g : ChaCha20) (pos : Nat) : Prop where
  state : Rep g.state (initial key (BitVec.ofNat 32 (1 + pos / 64 + 1)) nonce)
  buffer : g.buffer = block key (BitVec.ofNat 32 (1 + pos / 64)) nonce
  offset : g.offset.toNat = pos % 64

theorem generate_at {key nonce : List Byte} {g : ChaCha20} {c : Nat} (hs : Rep g.state (initial key (BitVec.ofNat 32 (1 + c)) nonce))
    (hb : g.buffer.length = 64) : At key nonce (ccGenerate g) (64 * c) := by
  have hc : 64 * c / 64 = c := by omega
  refine ⟨?_, ?_, ?_⟩
  · rw [hc]
    have e12 : g.state.getD 12 0#32 = BitVec.ofNat 32 (1 + c) := by rw [hs.2 12 (by omega)]; rfl
    have := rep_set hs (n := 12) (by omega) (g.state.getD 12 0#32 + 1#32)
    have e : initial key (BitVec.ofNat 32 (1 + c + 1)) nonce = Function.update (initial key (BitVec.ofNat 32 (1 + c)) nonce) 12 (g.state.getD 12 0#32 + 1#32) := ?_
    · rw [e]; exact this
    funext i
    rw [e12, Function.update_apply]
    unfold initial
    by_cases h : i = 12
    · subst h
      simp only [if_true]
      norm_num
      apply BitVec.eq_of_toNat_eq
      simp [BitVec.toNat_add, BitVec.toNat_ofNat]
    · simp only [h, if_false]
  · rw [hc, generate_buffer hs hb]; unfold block; rfl
  · show 0 = 64 * c % 64
    omega

theorem ccWord_spec {v : List Byte} {i : Nat} (h : 4 * i + 4 ≤ v.length) : ccWord v (4 * i) = leWordAt v i := by
  have := leWord4 (m := v) (g := i) h
  unfold ccWord
  rw [leWordAt]
  simp only [byte32] at this
  rw [this, Spec.md5X, slice4 h]
  rfl

theorem new_at {junk key nonce : List Byte} (hj : junk.length = 64) (hk : key.length = 32) (hn : nonce.length = 12) :
    ∃ g, ccNew junk key nonce = .ok g ∧ At key nonce g 0 := by
  unfold ccNew
  rw [if_neg (by simp [hk]), if_neg (by simp [hn])]
  refine ⟨_, rfl, generate_at (c := 0) ⟨rfl, ?_⟩ hj⟩
  intro i hi
  have hk' : ∀ j < 8, ccWord key (4 * j) = leWordAt key j := fun j hj => ccWord_spec (by omega)
  have hn' : ∀ j < 3, ccWord nonce (4 * j) = leWordAt nonce j := fun j hj => ccWord_spec (by omega)
  unfold initial
  interval_cases i
  · show 0x61707865#32 = leWordAt (ascii "expand 32-byte k") 0; decide +kernel
  · show 0x3320646e#32 = leWordAt (ascii "expand 32-byte k") 1; decide +kernel
  · show 0x79622d32#32 = leWordAt (ascii "expand 32-byte k") 2; decide +kernel
  · show 0x6b206574#32 = leWordAt (ascii "expand 32-byte k") 3; decide +kernel
  · exact hk' 0 (by omega)
  · exact hk' 1 (by omega)
  · exact hk' 2 (by omega)
  · exact hk' 3 (by omega)
  · exact hk' 4 (by omega)
  · exact hk' 5 (by omega)
  · exact hk' 6 (by omega)
  · exact hk' 7 (by omega)
  · rfl
  · exact hn' 0 (by omega)
  · exact hn' 1 (by omega)
  · exact hn' 2 (by omega)

theorem byte_at {key nonce : List Byte} {g : ChaCha20} {pos : Nat} (h : At key nonce g pos) (c : Byte) :
    ∃ g', ccByte g c = .ok (c ^^^ keystream key 1 nonce pos, g') ∧ At key nonce g' (pos + 1) := by
  have hl : g.buffer.length = 64 := by rw [h.buffer]; exact block_length _ _ _
  have hr : rd g.buffer g.offset.toNat = .ok (keystream key 1 nonce pos) := by
    rw [rd_ok_getD 0#8 (by rw [hl, h.offset]; omega), h.offset, h.buffer]; rfl
  have ho : (g.offset + 1#8).toNat = pos % 64 + 1 := by
    rw [BitVec.toNat_add, h.offset]; simp; omega
  unfold ccByte
  rw [hr, ok_bind]
  refine ⟨_, rfl, ?_⟩
  by_cases hp : pos % 64 = 63
  · have h64 : g.offset + 1#8 = 64#8 := BitVec.eq_of_toNat_eq (by rw [ho, hp]; rfl)
    simp only [h64, if_true]
    have hd : pos + 1 = 64 * (pos / 64 + 1) := by omega
    rw [hd]
    refine generate_at (g := { g with offset := 64#8 }) ?_ hl
    have := h.state
    rw [show 1 + pos / 64 + 1 = 1 + (pos / 64 + 1) by omega] at this
    exact this
  · have h64 : g.offset + 1#8 ≠ 64#8 := fun e => by
      rw [e] at ho; simp at ho; omega
    simp only [h64, if_false]
    have hd : (pos + 1) / 64 = pos / 64 := by omega
    exact ⟨by rw [hd]; exact h.state, by rw [hd]; exact h.buffer, by show (g.offset + 1#8).toNat = _; rw [ho]; omega⟩

theorem crypt_cons (key nonce : List Byte) (c p : Nat) (b : Byte) (data : List Byte) :
    crypt key c nonce p (b :: data) = (b ^^^ keystream key c nonce p) :: crypt key c nonce (p + 1) data := by
  unfold crypt
  rw [List.length_cons, List.range_succ_eq_map, List.map_cons, List.map_map]
  refine congrArg₂ List.cons (by rw [List.getD_cons_zero, Nat.add_zero]) ?_
  apply List.map_congr_left
  intro i _
  simp only [Function.comp, List.getD_cons_succ]
  rw [show p + i.succ = p + 1 + i by omega]

theorem encrypt_at {key nonce : List Byte} (data : List Byte) : ∀ {g : ChaCha20} {pos : Nat}, At key nonce g pos →
    ∃ g', ccEncrypt g data = .ok (crypt key 1 nonce pos data, g') ∧ At key nonce g' (pos + data.length) := by
  induction data with
  | nil => intro g pos h; exact ⟨g, rfl, h⟩
  | cons b data ih =>
    intro g pos h
    obtain ⟨g1, e1, h1⟩ := byte_at h b
    obtain ⟨g2, e2, h2⟩ := ih h1
    refine ⟨g2, ?_, by rw [List.length_cons, show pos + (data.length + 1) = pos + 1 + data.length by omega]; exact h2⟩
    rw [ccEncrypt, e1, ok_bind, e2, ok_bind, crypt_cons]
    rfl

theorem decrypt_eq (data : List Byte) : ∀ g, ccDecrypt g data = ccEncrypt g data := by
  induction data with
  | nil => intro g; rfl
  | cons b data ih => intro g; rw [ccDecrypt, ccEncrypt]; simp only [ih]

end Verif.Proof.Cc
