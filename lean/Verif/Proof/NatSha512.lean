import Verif.Proof.Rsa

/-! SHA-384 on natural numbers, in a form that the kernel evaluates quickly: every intermediate word is brought to a numeral before it is used.
`run384_sound` ties it to the model; it serves the counterexamples that need digests of concrete messages. -/

namespace Verif.Proof.Fast

open Verif.Model Verif.Spec

/-- `c v`, with `v` evaluated first. -/
noncomputable def force (v : Nat) (c : Nat → Bool) : Bool := Nat.rec (motive := fun _ => Bool) (c 0) (fun p _ => c (Nat.succ p)) v

theorem force_eq (v : Nat) (c : Nat → Bool) : force v c = c v := by cases v <;> rfl

/-- Likewise for a list. -/
noncomputable def forceList : List Nat → (List Nat → Bool) → Bool
  | [], c => c []
  | x :: xs, c => force x fun x => forceList xs fun l => c (x :: l)

theorem forceList_eq : ∀ (l : List Nat) (c : List Nat → Bool), forceList l c = c l
  | [], _ => rfl
  | x :: xs, c => by rw [forceList, force_eq, forceList_eq xs]

def rotN (v c d : Nat) : Nat := Nat.lor (Nat.shiftRight v c) (Nat.mod (Nat.shiftLeft v d) 18446744073709551616)

theorem rot_toNat (v : U64) (c d : Nat) (h : d = 64 - c) : (rotr64 v c).toNat = rotN v.toNat c d := by
  subst h
  simp only [rotr64, BitVec.toNat_or, BitVec.toNat_ushiftRight, BitVec.toNat_shiftLeft]
  rfl

def xor3 (a b c : Nat) : Nat := Nat.xor (Nat.xor a b) c

/-- One round. -/
def step1 (e f g h k w : Nat) : Nat :=
  Nat.mod (Nat.add (Nat.add (Nat.add (Nat.add h (xor3 (rotN e 14 50) (rotN e 18 46) (rotN e 41 23)))
    (Nat.lor (Nat.land e f) (Nat.land (Nat.sub 18446744073709551615 e) g))) k) w) 18446744073709551616
def step2 (a b c : Nat) : Nat :=
  Nat.mod (Nat.add (xor3 (rotN a 28 36) (rotN a 34 30) (rotN a 39 25)) (xor3 (Nat.land a b) (Nat.land a c) (Nat.land b c))) 18446744073709551616
def addN (a b : Nat) : Nat := Nat.mod (Nat.add a b) 18446744073709551616

theorem add_toNat (a b : U64) : (a + b).toNat = addN a.toNat b.toNat := BitVec.toNat_add a b

theorem step1_toNat (e f g h k w : U64) :
    (h + (rotr64 e 14 ^^^ rotr64 e 18 ^^^ rotr64 e 41) + ((e &&& f) ||| (~~~e &&& g)) + k + w).toNat =
    step1 e.toNat f.toNat g.toNat h.toNat k.toNat w.toNat := by
  simp only [BitVec.toNat_add, Nat.mod_add_mod, BitVec.toNat_xor, BitVec.toNat_or, BitVec.toNat_and, BitVec.toNat_not,
    rot_toNat e 14 50 rfl, rot_toNat e 18 46 rfl, rot_toNat e 41 23 rfl]
  rfl

theorem step2_toNat (a b c : U64) :
    ((rotr64 a 28 ^^^ rotr64 a 34 ^^^ rotr64 a 39) + ((a &&& b) ^^^ (a &&& c) ^^^ (b &&& c))).toNat = step2 a.toNat b.toNat c.toNat := by
  simp only [BitVec.toNat_add, BitVec.toNat_xor, BitVec.toNat_and, rot_toNat a 28 36 rfl, rot_toNat a 34 30 rfl, rot_toNat a 39 25 rfl]
  rfl

/-- A continuation that takes the eight words. -/
abbrev Cont := Nat → Nat → Nat → Nat → Nat → Nat → Nat → Nat → Bool

def Cont.at (k : Cont) (w : Sha2H 64) : Bool :=
  k w.1.toNat w.2.1.toNat w.2.2.1.toNat w.2.2.2.1.toNat w.2.2.2.2.1.toNat w.2.2.2.2.2.1.toNat w.2.2.2.2.2.2.1.toNat w.2.2.2.2.2.2.2.toNat

/-- The rounds for the constants `ks` and the schedule `ws`. -/
noncomputable def rounds : List Nat → List Nat → Cont → Cont
  | k :: ks, w :: ws, r, a, b, c, d, e, f, g, h =>
    force (step1 e f g h k w) fun t1 => force (addN t1 (step2 a b c)) fun x => force (addN d t1) fun y => rounds ks ws r x a b c y e f g
  | _, _, r, a, b, c, d, e, f, g, h => r a b c d e f g h

/-- The round of the model on given words. -/
def stepKW (st : Sha2H 64) (kw : U64 × U64) : Sha2H 64 := 
  let (a, b, c, d, e, f, g, h) := st
  let T1 := h + (rotr64 e 14 ^^^ rotr64 e 18 ^^^ rotr64 e 41) + ((e &&& f) ||| (~~~e &&& g)) + kw.1 + kw.2
  let T2 := (rotr64 a 28 ^^^ rotr64 a 34 ^^^ rotr64 a 39) + ((a &&& b) ^^^ (a &&& c) ^^^ (b &&& c))
  (T1 + T2, a, b, c, d + T1, e, f, g)

theorem stepKW_eq (W : List U64) (st : Sha2H 64) (t : Nat) : stepKW st (K512.getD t 0#64, W.getD t 0#64) = sha512Step W st t := rfl

theorem rounds_eq : ∀ (L : List (U64 × U64)) (r : Cont) (st : Sha2H 64),
    Cont.at (rounds (L.map (·.1.toNat)) (L.map (·.2.toNat)) r) st = Cont.at r (L.foldl stepKW st)
  | [], _, _ => rfl
  | (k, w) :: L, r, (a, b, c, d, e, f, g, h) => by
    rw [List.foldl_cons, ← rounds_eq L r]
    simp only [Cont.at, List.map_cons, rounds, force_eq, stepKW, ← step1_toNat, ← step2_toNat, ← add_toNat]

/-- Extending the schedule, newest word first. -/
def nextW (l : List Nat) : Nat :=
  Nat.mod (Nat.add (Nat.add (Nat.add (xor3 (rotN (l.getD 1 0) 19 45) (rotN (l.getD 1 0) 61 3) (Nat.shiftRight (l.getD 1 0) 6))
    (xor3 (rotN (l.getD 14 0) 1 63) (rotN (l.getD 14 0) 8 56) (Nat.shiftRight (l.getD 14 0) 7))) (l.getD 6 0)) (l.getD 15 0)) 18446744073709551616

noncomputable def sched : Nat → List Nat → (List Nat → Bool) → Bool
  | 0, l, c => c l
  | n + 1, l, c => force (nextW l) fun x => sched n (x :: l) c

def nextB (W : List U64) (t : Nat) : U64 :=
  (rotr64 (W.getD (t - 2) 0#64) 19 ^^^ rotr64 (W.getD (t - 2) 0#64) 61 ^^^ (W.getD (t - 2) 0#64 >>> 6)) +
      (rotr64 (W.getD (t - 15) 0#64) 1 ^^^ rotr64 (W.getD (t - 15) 0#64) 8 ^^^ (W.getD (t - 15) 0#64 >>> 7)) +
      W.getD (t - 7) 0#64 + W.getD (t - 16) 0#64

theorem getD_rev (W : List U64) (i : Nat) (h : i < W.length) : (W.reverse.map (·.toNat)).getD i 0 = (W.getD (W.length - (i + 1)) 0#64).toNat := by
  rw [List.getD_eq_getElem _ _ (by simpa using h), List.getD_eq_getElem _ _ (by omega)]
  simp only [List.getElem_map, List.getElem_reverse]
  congr 2
  omega

theorem nextW_eq (W : List U64) (h : 16 ≤ W.length) : nextW (W.reverse.map (·.toNat)) = (nextB W W.length).toNat := by
  unfold nextW nextB
  rw [getD_rev W 1 (by omega), getD_rev W 14 (by omega), getD_rev W 6 (by omega), getD_rev W 15 (by omega)]
  simp only [BitVec.toNat_add, Nat.mod_add_mod, BitVec.toNat_xor, BitVec.toNat_ushiftRight,
    rot_toNat _ 19 45 rfl, rot_toNat _ 61 3 rfl, rot_toNat _ 1 63 rfl, rot_toNat _ 8 56 rfl]
  rfl

theorem sched_eq (c : List Nat → Bool) : ∀ (n : Nat) (W : List U64), 16 ≤ W.length →
    sched n (W.reverse.map (·.toNat)) c = c (((List.range' W.length n).foldl (fun W t => W ++ [nextB W t]) W).reverse.map (·.toNat))
  | 0, _, _ => rfl
  | n + 1, W, h => by
    have ih := sched_eq c n (W ++ [nextB W W.length]) (by simp; omega)
    rw [sched, force_eq, nextW_eq W h, List.range'_succ, List.foldl_cons]
    rw [List.reverse_append, List.length_append] at ih
    exact ih

theorem extend_length : ∀ (n s : Nat) (W : List U64), ((List.range' s n).foldl (fun W t => W ++ [nextB W t]) W).length = W.length + n
  | 0, _, _ => rfl
  | n + 1, s, W => by
    rw [List.range'_succ, List.foldl_cons, extend_length n, List.length_append, List.length_singleton, Nat.add_assoc, Nat.add_comm 1]

/-- The sixteen words of a block, newest first. -/
def wordsN : Nat → List Byte → List Nat → List Nat
  | 0, _, acc => acc
  | n + 1, b, acc => wordsN n (b.drop 8) (beOctets (b.take 8) :: acc)

theorem wordsN_eq : ∀ (n : Nat) (b : List Byte) (acc : List Nat),
    wordsN n b acc = ((List.range n).map (fun t => beOctets ((b.drop (8 * t)).take 8))).reverse ++ acc
  | 0, _, _ => rfl
  | n + 1, b, acc => by
    rw [wordsN, wordsN_eq n, List.range_succ_eq_map, List.map_cons, List.reverse_cons, List.append_assoc, List.map_map]
    simp only [List.drop_drop, Function.comp_def, Nat.mul_zero, List.drop_zero, Nat.mul_succ, List.singleton_append]
    simp only [Nat.add_comm 8]

theorem beOctets_foldl_lt : ∀ (l : List Byte) (a : Nat), l.foldl (fun a b => 256 * a + b.toNat) a < (a + 1) * 256 ^ l.length
  | [], a => by simp
  | x :: l, a => by
    have := beOctets_foldl_lt l (256 * a + x.toNat)
    have hx := x.isLt
    rw [List.foldl_cons, List.length_cons, Nat.pow_succ, Nat.mul_comm (256 ^ l.length), ← Nat.mul_assoc]
    exact lt_of_lt_of_le this (Nat.mul_le_mul_right _ (by omega))

theorem beOctets_lt {l : List Byte} (h : l.length ≤ 8) : beOctets l < 2 ^ 64 := by
  have := beOctets_foldl_lt l 0
  rw [Nat.zero_add, Nat.one_mul] at this
  refine lt_of_lt_of_le this ?_
  calc 256 ^ l.length ≤ 256 ^ 8 := Nat.pow_le_pow_right (by decide) h
    _ = 2 ^ 64 := by decide

/-- The compression function. -/
noncomputable def compressN (ks : List Nat) (b : List Byte) (r : Cont) : Cont := fun a0 b0 c0 d0 e0 f0 g0 h0 =>
  forceList (wordsN 16 b []) fun ws => sched 64 ws fun l =>
    rounds ks l.reverse (fun a b c d e f g h => force (addN a0 a) fun a => force (addN b0 b) fun b => force (addN c0 c) fun c => force (addN d0 d) fun d =>
      force (addN e0 e) fun e => force (addN f0 f) fun f => force (addN g0 g) fun g => force (addN h0 h) fun h => r a b c d e f g h) a0 b0 c0 d0 e0 f0 g0 h0

/-- The first sixteen words of the schedule. -/
def firstW (b : List Byte) : List U64 := (List.range 16).map (fun t =>
      (byte64 b (t * 8) <<< 56) + (byte64 b (t * 8 + 1) <<< 48) + (byte64 b (t * 8 + 2) <<< 40) +
      (byte64 b (t * 8 + 3) <<< 32) + (byte64 b (t * 8 + 4) <<< 24) + (byte64 b (t * 8 + 5) <<< 16) +
      (byte64 b (t * 8 + 6) <<< 8) + (byte64 b (t * 8 + 7) <<< 0))

theorem firstW_length (b : List Byte) : (firstW b).length = 16 := by rw [firstW, List.length_map, List.length_range]

theorem wordsN_firstW (b : List Byte) (hb : b.length = 128) : wordsN 16 b [] = (firstW b).reverse.map (·.toNat) := by
  rw [wordsN_eq, List.append_nil, List.map_reverse, firstW, List.map_map]
  congr 1
  refine List.map_congr_left (fun t ht => ?_)
  have ht' : t < 16 := List.mem_range.mp ht
  refine Eq.trans ?_ (congrArg BitVec.toNat (beWord8 (m := b) (t := t) (by omega))).symm
  show _ = (BitVec.ofNat 64 _).toNat
  rw [BitVec.toNat_ofNat, Nat.mod_eq_of_lt (beOctets_lt (by rw [List.length_take]; omega))]

theorem sha512W_first (b : List Byte) : sha512W b = (List.range' (firstW b).length 64).foldl (fun W t => W ++ [nextB W t]) (firstW b) := by
  rw [firstW_length]
  unfold sha512W nextB firstW
  exact Eq.refl _

theorem pairs (f g : Nat → U64) (n : Nat) (l m : List U64) (hl : l.length = n) (hm : m.length = n) (hf : ∀ i, f i = l.getD i 0#64) (hg : ∀ i, g i = m.getD i 0#64) :
    ((List.range n).map (fun t => (f t, g t))).map (·.1.toNat) = l.map (·.toNat) ∧ ((List.range n).map (fun t => (f t, g t))).map (·.2.toNat) = m.map (·.toNat) := by
  constructor
  · rw [List.map_map]
    refine List.ext_getElem (by simp [hl]) (fun i h1 h2 => ?_)
    rw [List.length_map] at h2
    simp only [List.getElem_map, List.getElem_range, Function.comp]
    rw [hf, List.getD_eq_getElem _ _ h2]
  · rw [List.map_map]
    refine List.ext_getElem (by simp [hm]) (fun i h1 h2 => ?_)
    rw [List.length_map] at h2
    simp only [List.getElem_map, List.getElem_range, Function.comp]
    rw [hg, List.getD_eq_getElem _ _ h2]

theorem rounds80 (W : List U64) (hW : W.length = 80) (r : Cont) (st : Sha2H 64) :
    Cont.at (rounds (K512.map (·.toNat)) (W.map (·.toNat)) r) st = Cont.at r ((List.range 80).foldl (sha512Step W) st) := by
  obtain ⟨e1, e2⟩ := pairs (fun t => K512.getD t 0#64) (fun t => W.getD t 0#64) 80 K512 W (by decide) hW (fun _ => rfl) (fun _ => rfl)
  rw [← e1, ← e2, rounds_eq, List.foldl_map]
  exact congrArg (fun f => Cont.at r ((List.range 80).foldl f st)) (funext fun st => funext fun t => stepKW_eq W st t)

theorem final (r : Cont) (w v : Sha2H 64) :
    Cont.at (fun a b c d e f g h => r (addN w.1.toNat a) (addN w.2.1.toNat b) (addN w.2.2.1.toNat c) (addN w.2.2.2.1.toNat d) (addN w.2.2.2.2.1.toNat e)
      (addN w.2.2.2.2.2.1.toNat f) (addN w.2.2.2.2.2.2.1.toNat g) (addN w.2.2.2.2.2.2.2.toNat h)) v = Cont.at r (sha2Add w v) := by
  obtain ⟨a, b, c, d, e, f, g, h⟩ := v
  obtain ⟨a0, b0, c0, d0, e0, f0, g0, h0⟩ := w
  simp only [Cont.at, sha2Add, add_toNat]

theorem compressN_eq (b : List Byte) (hb : b.length = 128) (r : Cont) (st : Sha2H 64) :
    Cont.at (compressN (K512.map (·.toNat)) b r) st = Cont.at r (sha512Compress st b) := by
  have hlen : (sha512W b).length = 80 := by rw [sha512W_first, extend_length, firstW_length]
  unfold sha512Compress
  rw [← final r st, ← rounds80 _ hlen]
  unfold compressN
  generalize hk : K512.map (·.toNat) = ks
  simp only [force_eq, forceList_eq, Cont.at]
  rw [wordsN_firstW b hb, sched_eq _ 64 (firstW b) (by rw [firstW_length]), ← sha512W_first, List.map_reverse, List.reverse_reverse]

noncomputable def chainN (ks : List Nat) (r : Cont) : List (List Byte) → Cont
  | [] => r
  | b :: bs => compressN ks b (chainN ks r bs)

theorem chainN_eq (r : Cont) : ∀ (bs : List (List Byte)), (∀ b ∈ bs, b.length = 128) → ∀ st,
    Cont.at (chainN (K512.map (·.toNat)) r bs) st = Cont.at r (iterate sha512Compress st bs)
  | [], _, _ => rfl
  | b :: bs, h, st => by
    rw [chainN, compressN_eq b (h b (by simp)), chainN_eq r bs (fun x hx => h x (by simp [hx]))]
    rfl

/-- The blocks of a list of `128 * n` bytes. -/
def split : Nat → List Byte → List (List Byte)
  | 0, _ => []
  | n + 1, l => l.take 128 :: split n (l.drop 128)

theorem split_eq : ∀ (n : Nat) (l : List Byte), l.length = 128 * n → blocks 128 l = split n l ∧ ∀ b ∈ split n l, b.length = 128
  | 0, l, h => ⟨blocks_lt (by omega), by simp [split]⟩
  | n + 1, l, h => by
    have ih := split_eq n (l.drop 128) (by rw [List.length_drop]; omega)
    rw [blocks_cons (by decide) (by omega), ih.1]
    refine ⟨rfl, fun b hb => ?_⟩
    rcases List.mem_cons.mp hb with e | e
    · rw [e, List.length_take]; omega
    · exact ih.2 b e

/-- The constants as numerals. -/
def kLits : List Nat := [
  0x428a2f98d728ae22, 0x7137449123ef65cd, 0xb5c0fbcfec4d3b2f, 0xe9b5dba58189dbbc,
  0x3956c25bf348b538, 0x59f111f1b605d019, 0x923f82a4af194f9b, 0xab1c5ed5da6d8118,
  0xd807aa98a3030242, 0x12835b0145706fbe, 0x243185be4ee4b28c, 0x550c7dc3d5ffb4e2,
  0x72be5d74f27b896f, 0x80deb1fe3b1696b1, 0x9bdc06a725c71235, 0xc19bf174cf692694,
  0xe49b69c19ef14ad2, 0xefbe4786384f25e3, 0x0fc19dc68b8cd5b5, 0x240ca1cc77ac9c65,
  0x2de92c6f592b0275, 0x4a7484aa6ea6e483, 0x5cb0a9dcbd41fbd4, 0x76f988da831153b5,
  0x983e5152ee66dfab, 0xa831c66d2db43210, 0xb00327c898fb213f, 0xbf597fc7beef0ee4,
  0xc6e00bf33da88fc2, 0xd5a79147930aa725, 0x06ca6351e003826f, 0x142929670a0e6e70,
  0x27b70a8546d22ffc, 0x2e1b21385c26c926, 0x4d2c6dfc5ac42aed, 0x53380d139d95b3df,
  0x650a73548baf63de, 0x766a0abb3c77b2a8, 0x81c2c92e47edaee6, 0x92722c851482353b,
  0xa2bfe8a14cf10364, 0xa81a664bbc423001, 0xc24b8b70d0f89791, 0xc76c51a30654be30,
  0xd192e819d6ef5218, 0xd69906245565a910, 0xf40e35855771202a, 0x106aa07032bbd1b8,
  0x19a4c116b8d2d0c8, 0x1e376c085141ab53, 0x2748774cdf8eeb99, 0x34b0bcb5e19b48a8,
  0x391c0cb3c5c95a63, 0x4ed8aa4ae3418acb, 0x5b9cca4f7763e373, 0x682e6ff3d6b2b8a3,
  0x748f82ee5defb2fc, 0x78a5636f43172f60, 0x84c87814a1f0ab72, 0x8cc702081a6439ec,
  0x90befffa23631e28, 0xa4506cebde82bde9, 0xbef9a3f7b2c67915, 0xc67178f2e372532b,
  0xca273eceea26619c, 0xd186b8c721c0c207, 0xeada7dd6cde0eb1e, 0xf57d4f7fee6ed178,
  0x06f067aa72176fba, 0x0a637dc5a2c898a6, 0x113f9804bef90dae, 0x1b710b35131c471b,
  0x28db77f523047d84, 0x32caab7b40c72493, 0x3c9ebe0a15c9bebc, 0x431d67c49c100d4c,
  0x4cc5d4becb3e42b6, 0x597f299cfc657e2a, 0x5fcb6fab3ad6faec, 0x6c44198c4a475817]

theorem kLits_eq : K512.map (·.toNat) = kLits := by decide +kernel

/-- The padded message. -/
def pad384 (m : List Byte) : List Byte := pad 128 16 (beBytes 16) m

/-- The digest of `m`, whose padding has `n` blocks, is `d`. -/
noncomputable def run384 (n : Nat) (m d : List Byte) : Bool :=
  Nat.beq (pad384 m).length (Nat.mul 128 n) && Nat.ble m.length 100000 &&
  chainN kLits (fun a b c d' e f g h => decide ((sha512Out (BitVec.ofNat 64 a, BitVec.ofNat 64 b, BitVec.ofNat 64 c, BitVec.ofNat 64 d', BitVec.ofNat 64 e,
      BitVec.ofNat 64 f, BitVec.ofNat 64 g, BitVec.ofNat 64 h)).take 48 = d)) (split n (pad384 m))
    0xcbbb9d5dc1059ed8 0x629a292a367cd507 0x9159015a3070dd17 0x152fecd8f70e5939 0x67332667ffc00b31 0x8eb44a8768581511 0xdb0c2e0d64f98fa7 0x47b5481dbefa4fa4

theorem run384_sound {n : Nat} {m d : List Byte} (h : run384 n m d = true) : hashOf .sha2_384 m = d := by
  unfold run384 at h
  rw [Bool.and_eq_true, Bool.and_eq_true] at h
  obtain ⟨⟨h1, h2⟩, h3⟩ := h
  have h1 := Nat.eq_of_beq_eq_true h1
  have h2 := Nat.le_of_ble_eq_true h2
  obtain ⟨hs, hl⟩ := split_eq n (pad384 m) h1
  have hc := chainN_eq (fun a b c d' e f g h => decide ((sha512Out (BitVec.ofNat 64 a, BitVec.ofNat 64 b, BitVec.ofNat 64 c, BitVec.ofNat 64 d', BitVec.ofNat 64 e,
      BitVec.ofNat 64 f, BitVec.ofNat 64 g, BitVec.ofNat 64 h)).take 48 = d)) _ hl sha384.init
  rw [kLits_eq] at hc
  have hd := of_decide_eq_true (hc.symm.trans h3)
  simp only [BitVec.ofNat_toNat, BitVec.setWidth_eq] at hd
  have := data_eq (A := sha384) (by decide) (absorbed_add (A := sha384) (by decide) (absorbed_new (A := sha384) (junk := List.replicate 128 0#8) rfl) m)
    (Or.inr (by rw [List.nil_append]; omega))
  rw [List.nil_append] at this
  refine Eq.trans (this : hashOf .sha2_384 m = _) ?_
  refine Eq.trans ?_ hd
  show (sha512Out (iterate sha512Compress sha384.init (blocks 128 (pad 128 16 (beBytes 16) m)))).take 48 = _
  rw [show pad 128 16 (beBytes 16) m = pad384 m from rfl, hs]

end Verif.Proof.Fast
