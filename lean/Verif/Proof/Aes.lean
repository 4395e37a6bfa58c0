import Verif.Proof.Simd
import Verif.Proof.AesTables
import Verif.Model.Aes
import Verif.Spec.Aes

/-! AES: the instructions against FIPS 197. -/

namespace Verif.Proof
open Verif.Model Verif.Spec.Aes

theorem byte_ofNat (b : Byte) : ∃ n, n < 256 ∧ b = BitVec.ofNat 8 n := ⟨b.toNat, b.isLt, by simp⟩

theorem subByte_eq (b : Byte) : subByte b = sbox b := by
  obtain ⟨n, h, rfl⟩ := byte_ofNat b; exact subByte_table n h
theorem gmul2 (b : Byte) : gmul 0x02#8 b = xtime b := by
  obtain ⟨n, h, rfl⟩ := byte_ofNat b; exact (xtime_table n h).1
theorem gmul3 (b : Byte) : gmul 0x03#8 b = xtime b ^^^ b := by
  obtain ⟨n, h, rfl⟩ := byte_ofNat b; exact (xtime_table n h).2
/-- `gfInv` of the specification is the inverse. -/
theorem gfInv_spec (b : Byte) (hb : b ≠ 0#8) : gmul b (gfInv b) = 1#8 := by
  obtain ⟨n, h, rfl⟩ := byte_ofNat b
  exact (gfInv_table n h).resolve_left (by rintro rfl; exact hb rfl)

/-! ### Rounds -/

/-- The register holds the state, column by column. -/
def Agree (v : M128) (s : State) : Prop := ∀ r c, r < 4 → c < 4 → byteOf v (r + 4 * c) = s r c
/-- The register holds round key `n` of the expanded key. -/
def KeyAt (k : M128) (w : List (List Byte)) (n : Nat) : Prop := ∀ r c, r < 4 → c < 4 → (w.getD (4 * n + c) []).getD r 0#8 = byteOf k (r + 4 * c)

theorem agree_load (l : List Byte) : Agree (loadBytes l) (toState l) := fun r c hr hc => byteOf_load l (by omega)

theorem agree_add {v k : M128} {s : State} {w : List (List Byte)} {n : Nat} (h : Agree v s) (hk : KeyAt k w n) :
    Agree (v ^^^ k) (addRoundKey s w n) := fun r c hr hc => by
  rw [byteOf_xor, h r c hr hc, addRoundKey, hk r c hr hc]

theorem agree_subShift {v : M128} {s : State} (h : Agree v s) : Agree (niSubBytes (niShiftRows v)) (shiftRows (subBytes s)) := fun r c hr hc => by
  rw [niSubBytes, byteOf_packBytes _ (by omega), niShiftRows, byteOf_packBytes _ (by omega),
    show (r + 4 * c + 4 * ((r + 4 * c) % 4)) % 16 = r + 4 * ((c + r) % 4) by omega, h r _ hr (by omega), subByte_eq]
  rfl

theorem agree_mix {v : M128} {s : State} (h : Agree v s) : Agree (niMixColumns v) (mixColumns s) := fun r c hr hc => by
  have e : ∀ j, (r + 4 * c) / 4 * 4 + (r + 4 * c + j) % 4 = (r + j) % 4 + 4 * c := by intro j; omega
  rw [niMixColumns, byteOf_packBytes _ (by omega), e, e, e, h r c hr hc, h _ c (by omega) hc, h _ c (by omega) hc, h _ c (by omega) hc,
    mixColumns, gmul2, gmul3, mixByte]

theorem agree_output {v : M128} {s : State} (h : Agree v s) : storeu v = output s := by
  apply List.ext_getElem (by rw [storeu_length, output, List.length_map, List.length_range])
  intro i h1 h2
  have hi : i < 16 := h1
  rw [← List.getD_eq_getElem _ 0#8 h1, storeu_getD _ hi]
  simp only [output, List.getElem_map, List.getElem_range]
  rw [← h _ _ (by omega) (by omega), show i % 4 + 4 * (i / 4) = i by omega]

/-- `AesEncrypt` with round keys that hold the expanded key is the cipher of FIPS 197. -/
theorem aesEncrypt_cipher (bits nr : Nat) (hr : aesRounds bits = nr) (h1 : 1 ≤ nr) (rk : List M128) (w : List (List Byte)) (hl : rk.length = nr + 1)
    (hk : ∀ n, n ≤ nr → KeyAt (rk.getD n 0#128) w n) (block : List Byte) :
    ∃ r, aesEncrypt bits rk (loadBytes block) = .ok r ∧ storeu r = cipher nr w block := by
  obtain ⟨b, e, hb⟩ := loop_inv (n := aesRounds bits - 1) (s := loadBytes block ^^^ rk.getD 0 0#128)
    (body := fun block n => do return aesenc block (← rd rk (n + 1)))
    (fun n (b : M128) => Agree b ((List.range' 1 n).foldl (fun s round => addRoundKey (mixColumns (shiftRows (subBytes s))) w round)
      (addRoundKey (toState block) w 0)))
    (agree_add (agree_load block) (hk 0 (by omega)))
    (fun n hn b hb => ⟨aesenc b (rk.getD (n + 1) 0#128), by rw [rd_ok_getD 0#128 (by omega)]; rfl, by
      rw [List.range'_1_concat, List.foldl_append, Nat.add_comm 1 n]
      exact agree_add (agree_mix (agree_subShift hb)) (hk _ (by omega))⟩)
  refine ⟨aesenclast b (rk.getD nr 0#128), ?_, ?_⟩
  · rw [aesEncrypt, rd_ok_getD 0#128 (by omega)]
    show (loop (aesRounds bits - 1) (loadBytes block ^^^ rk.getD 0 0#128) _ >>= _) = _
    rw [e]
    show (rd rk (aesRounds bits) >>= _) = _
    rw [hr, rd_ok_getD 0#128 (by omega)]; rfl
  · rw [hr] at hb
    exact agree_output (agree_add (agree_subShift hb) (hk nr (le_refl _)))

/-! ### Key expansion -/

theorem le32_xor (a b : U32) : le32 (a ^^^ b) = xorWord (le32 a) (le32 b) := by
  simp only [le32, BitVec.extractLsb'_xor, xorWord, List.zipWith_cons_cons, List.zipWith_nil_left]

theorem le32_subWord (a : U32) : le32 (niSubWord a) = subWord (le32 a) := by
  obtain ⟨h0, h1, h2, h3⟩ := packDword_byte (subByte (a.extractLsb' 0 8)) (subByte (a.extractLsb' 8 8)) (subByte (a.extractLsb' 16 8))
    (subByte (a.extractLsb' 24 8))
  simp only [le32, niSubWord, subWord, List.map_cons, List.map_nil, h0, h1, h2, h3]
  simp only [subByte_eq]

theorem le32_rotWord (a : U32) : le32 (niRotWord a) = rotWord (le32 a) := by
  have h : ∀ s, s % 8 = 0 → s + 8 ≤ 32 → (a.rotateRight 8).extractLsb' s 8 = a.extractLsb' ((s + 8) % 32) 8 := by
    intro s h8 hs
    apply BitVec.eq_of_getLsbD_eq
    intro i hi
    simp only [BitVec.getLsbD_extractLsb', BitVec.getLsbD_rotateRight, hi, decide_true, Bool.true_and]
    by_cases hc : s + i < 32 - 8 % 32
    · rw [decide_eq_true hc, cond_true]
      congr 1; omega
    · rw [decide_eq_false hc, cond_false, decide_eq_true (show s + i < 32 by omega), Bool.true_and]
      congr 1; omega
  simp only [le32, niRotWord, rotWord, List.cons_append, List.nil_append]
  rw [h 0 rfl (by decide), h 8 rfl (by decide), h 16 rfl (by decide), h 24 rfl (by decide)]

theorem subWord_rotWord (w : List Byte) : subWord (rotWord w) = rotWord (subWord w) := by
  cases w with
  | nil => rfl
  | cons a r => simp [subWord, rotWord]

/-- Round key words in FIPS 197 order. -/
def wordsOf (k : M128) : List (List Byte) := [le32 (dwordOf k 0), le32 (dwordOf k 1), le32 (dwordOf k 2), le32 (dwordOf k 3)]

theorem rcon_word (rc : Byte) : le32 (rc.setWidth 32) = [rc, 0#8, 0#8, 0#8] := by
  obtain ⟨n, h, rfl⟩ := byte_ofNat rc
  have : ∀ n < 256, le32 ((BitVec.ofNat 8 n).setWidth 32) = [BitVec.ofNat 8 n, 0#8, 0#8, 0#8] := by decide +kernel
  exact this n h

/-- Shifting in a word: the step of the key expansion only looks at the last `nk` words. -/
theorem expandStep_roll (nk : Nat) (pre : List (List Byte)) (a : List Byte) (mid : List (List Byte)) (z : List Byte) (hm : (mid ++ [z]).length + 1 = nk) :
    expandStep nk (pre ++ a :: (mid ++ [z])) (pre.length + nk) = (pre ++ [a]) ++ (mid ++ [z]) ++ [xorWord a
      (if (pre.length + nk) % nk = 0 then xorWord (subWord (rotWord z)) (rcon ((pre.length + nk) / nk))
        else if nk > 6 ∧ (pre.length + nk) % nk = 4 then subWord z else z)] := by
  have h1 : (pre ++ a :: (mid ++ [z])).getD (pre.length + nk - 1) [] = z := by
    rw [show pre ++ a :: (mid ++ [z]) = (pre ++ a :: mid) ++ [z] by simp,
      List.getD_append_right _ _ _ _ (by simp at *; omega)]
    have : pre.length + nk - 1 - (pre ++ a :: mid).length = 0 := by simp at *; omega
    rw [this]; rfl
  have h2 : (pre ++ a :: (mid ++ [z])).getD (pre.length + nk - nk) [] = a := by
    rw [Nat.add_sub_cancel, List.getD_append_right _ _ _ _ (le_refl _), Nat.sub_self]; rfl
  rw [expandStep, h1, h2]
  simp

/-- Lanes of the prefix sums `t ^ t<<4 ^ t<<8 ^ t<<12`. -/
theorem dwords_prefix (t : M128) : let u := t ^^^ slliSi t 0x4 ^^^ slliSi t 0x8 ^^^ slliSi t 0xC
    dwordOf u 0 = dwordOf t 0 ∧ dwordOf u 1 = dwordOf t 1 ^^^ dwordOf t 0 ∧ dwordOf u 2 = dwordOf t 2 ^^^ (dwordOf t 1 ^^^ dwordOf t 0) ∧
    dwordOf u 3 = dwordOf t 3 ^^^ (dwordOf t 2 ^^^ (dwordOf t 1 ^^^ dwordOf t 0)) := by
  have h1 : ∀ i, i < 4 → _ := fun i hi => dwordOf_slli t 1 i hi
  have h2 : ∀ i, i < 4 → _ := fun i hi => dwordOf_slli t 2 i hi
  have h3 : ∀ i, i < 4 → _ := fun i hi => dwordOf_slli t 3 i hi
  refine ⟨?_, ?_, ?_, ?_⟩
  all_goals
    simp only [dwordOf_xor]
    rw [show (0x4 : Nat) = 4 * 1 by rfl, show (0x8 : Nat) = 4 * 2 by rfl, show (0xC : Nat) = 4 * 3 by rfl, h1 _ (by decide), h2 _ (by decide),
      h3 _ (by decide)]
    simp [BitVec.xor_assoc]

/-- The key schedule function on the last word. -/
def schedF (x : U32) (rc : Byte) : U32 := niRotWord (niSubWord x) ^^^ rc.setWidth 32

theorem le32_schedF (x : U32) (rc : Byte) : le32 (schedF x rc) = xorWord (subWord (rotWord (le32 x))) [rc, 0#8, 0#8, 0#8] := by
  rw [schedF, le32_xor, le32_rotWord, le32_subWord, subWord_rotWord, rcon_word]

theorem nextRoundKey_words (m : Nat) (k : M128) (rc : Byte) (hrc : roundConstants.getD m 0#8 = rc) :
    let e0 := dwordOf k 0 ^^^ schedF (dwordOf k 3) rc
    let e1 := dwordOf k 1 ^^^ e0
    let e2 := dwordOf k 2 ^^^ e1
    wordsOf (nextRoundKey m k) = [le32 e0, le32 e1, le32 e2, le32 (dwordOf k 3 ^^^ e2)] := by
  intro e0 e1 e2
  obtain ⟨p0, p1, p2, p3⟩ := dwords_prefix (k ^^^ srliSi (aeskeygenassist k (roundConstants.getD m 0#8)) 0x0c)
  have hs : ∀ i, i < 4 → _ := fun i hi => dwordOf_srli (aeskeygenassist k (roundConstants.getD m 0#8)) 3 i hi
  obtain ⟨_, _, _, q3⟩ := dwordOf_pack (niSubWord (dwordOf k 1)) (niRotWord (niSubWord (dwordOf k 1)) ^^^ rc.setWidth 32)
    (niSubWord (dwordOf k 3)) (niRotWord (niSubWord (dwordOf k 3)) ^^^ rc.setWidth 32)
  have t0 : dwordOf (k ^^^ srliSi (aeskeygenassist k (roundConstants.getD m 0#8)) 0x0c) 0 = e0 := by
    rw [dwordOf_xor, hs 0 (by decide), if_pos (by decide), hrc]
    exact congrArg _ q3
  have t : ∀ i, 0 < i → i < 4 → dwordOf (k ^^^ srliSi (aeskeygenassist k (roundConstants.getD m 0#8)) 0x0c) i = dwordOf k i := by
    intro i h0 h4
    rw [dwordOf_xor, hs i h4, if_neg (by omega), BitVec.xor_zero]
  rw [nextRoundKey, wordsOf, p0, p1, p2, p3, t0, t 1 (by decide) (by decide), t 2 (by decide) (by decide), t 3 (by decide) (by decide)]

theorem roll4_first (pre : List (List Byte)) (a b c d : List Byte) (i : Nat) (hi : i = pre.length + 4) (h0 : i % 4 = 0) :
    expandStep 4 (pre ++ [a, b, c, d]) i = (pre ++ [a]) ++ [b, c, d, xorWord a (xorWord (subWord (rotWord d)) (rcon (i / 4)))] := by
  have := expandStep_roll 4 pre a [b, c] d rfl
  rw [← hi, if_pos h0] at this
  simpa using this

theorem roll4_rest (pre : List (List Byte)) (a b c d : List Byte) (i : Nat) (hi : i = pre.length + 4) (h0 : i % 4 ≠ 0) :
    expandStep 4 (pre ++ [a, b, c, d]) i = (pre ++ [a]) ++ [b, c, d, xorWord a d] := by
  have := expandStep_roll 4 pre a [b, c] d rfl
  rw [← hi, if_neg h0, if_neg (by omega)] at this
  simpa using this

/-- Four steps of the expansion for `nk = 4`. -/
theorem expand4 (m : Nat) (pre : List (List Byte)) (hp : pre.length = 4 * m) (k : M128)
    (hrc : roundConstants.getD m 0#8 = gpow 0x02#8 m) :
    (List.range' (4 * (m + 1)) 4).foldl (expandStep 4) (pre ++ wordsOf k) = (pre ++ wordsOf k) ++ wordsOf (nextRoundKey m k) := by
  have hr : List.range' (4 * (m + 1)) 4 = [4 * (m + 1), 4 * (m + 1) + 1, 4 * (m + 1) + 2, 4 * (m + 1) + 3] := rfl
  rw [hr, nextRoundKey_words m k _ hrc]
  simp only [List.foldl_cons, List.foldl_nil, wordsOf]
  rw [roll4_first _ _ _ _ _ _ (by omega) (by omega), roll4_rest _ _ _ _ _ _ (by simp; omega) (by omega),
    roll4_rest _ _ _ _ _ _ (by simp; omega) (by omega), roll4_rest _ _ _ _ _ _ (by simp; omega) (by omega)]
  simp only [le32_xor, le32_schedF, Nat.mul_div_cancel_left _ (show 0 < 4 by decide), List.append_assoc, List.cons_append, List.nil_append, rcon,
    Nat.add_sub_cancel]

theorem roll8_first (pre : List (List Byte)) (a b c d e f g h : List Byte) (i : Nat) (hi : i = pre.length + 8) (h0 : i % 8 = 0) :
    expandStep 8 (pre ++ [a, b, c, d, e, f, g, h]) i =
      (pre ++ [a]) ++ [b, c, d, e, f, g, h, xorWord a (xorWord (subWord (rotWord h)) (rcon (i / 8)))] := by
  have := expandStep_roll 8 pre a [b, c, d, e, f, g] h rfl
  rw [← hi, if_pos h0] at this
  simpa using this

theorem roll8_mid (pre : List (List Byte)) (a b c d e f g h : List Byte) (i : Nat) (hi : i = pre.length + 8) (h0 : i % 8 = 4) :
    expandStep 8 (pre ++ [a, b, c, d, e, f, g, h]) i = (pre ++ [a]) ++ [b, c, d, e, f, g, h, xorWord a (subWord h)] := by
  have := expandStep_roll 8 pre a [b, c, d, e, f, g] h rfl
  rw [← hi, if_neg (by omega), if_pos ⟨by decide, h0⟩] at this
  simpa using this

theorem roll8_rest (pre : List (List Byte)) (a b c d e f g h : List Byte) (i : Nat) (hi : i = pre.length + 8) (h0 : i % 8 ≠ 0) (h4 : i % 8 ≠ 4) :
    expandStep 8 (pre ++ [a, b, c, d, e, f, g, h]) i = (pre ++ [a]) ++ [b, c, d, e, f, g, h, xorWord a h] := by
  have := expandStep_roll 8 pre a [b, c, d, e, f, g] h rfl
  rw [← hi, if_neg h0, if_neg (by omega)] at this
  simpa using this

theorem dwordOf_splat (v : M128) (imm q : Nat) (h : imm % 4 = q ∧ imm / 4 % 4 = q ∧ imm / 16 % 4 = q ∧ imm / 64 % 4 = q) (i : Nat) (hi : i < 4) :
    dwordOf (shuffleEpi32 v imm) i = dwordOf v q := by
  obtain ⟨h0, h1, h2, h3⟩ := h
  rw [shuffleEpi32, h0, h1, h2, h3]
  obtain ⟨p0, p1, p2, p3⟩ := dwordOf_pack (dwordOf v q) (dwordOf v q) (dwordOf v q) (dwordOf v q)
  match i, hi with
  | 0, _ => exact p0
  | 1, _ => exact p1
  | 2, _ => exact p2
  | 3, _ => exact p3

/-- Lanes of `a ^= a<<4 ^ a<<8 ^ a<<12 ^ splat(f)`. -/
theorem step_words (a s : M128) (f : U32) (hs : ∀ i, i < 4 → dwordOf s i = f) :
    let e0 := dwordOf a 0 ^^^ f
    let e1 := dwordOf a 1 ^^^ e0
    let e2 := dwordOf a 2 ^^^ e1
    wordsOf (a ^^^ (slliSi a 0x4 ^^^ slliSi a 0x8 ^^^ slliSi a 0xC ^^^ s)) = [le32 e0, le32 e1, le32 e2, le32 (dwordOf a 3 ^^^ e2)] := by
  intro e0 e1 e2
  obtain ⟨p0, p1, p2, p3⟩ := dwords_prefix a
  have hx : a ^^^ (slliSi a 0x4 ^^^ slliSi a 0x8 ^^^ slliSi a 0xC ^^^ s) = (a ^^^ slliSi a 0x4 ^^^ slliSi a 0x8 ^^^ slliSi a 0xC) ^^^ s := by
    simp only [BitVec.xor_assoc]
  rw [hx]
  simp only [wordsOf, dwordOf_xor _ s, p0, p1, p2, p3, hs 0 (by decide), hs 1 (by decide), hs 2 (by decide), hs 3 (by decide)]
  simp only [e0, e1, e2, BitVec.xor_assoc]

theorem stepA_words (a b : M128) (rc : Byte) :
    let e0 := dwordOf a 0 ^^^ schedF (dwordOf b 3) rc
    let e1 := dwordOf a 1 ^^^ e0
    let e2 := dwordOf a 2 ^^^ e1
    wordsOf (aesStepA a b rc) = [le32 e0, le32 e1, le32 e2, le32 (dwordOf a 3 ^^^ e2)] := by
  refine step_words a _ _ (fun i hi => ?_)
  rw [dwordOf_splat _ _ 3 (by decide) i hi]
  exact (dwordOf_pack _ _ _ _).2.2.2

theorem stepB_words (a b : M128) :
    let e0 := dwordOf b 0 ^^^ niSubWord (dwordOf a 3)
    let e1 := dwordOf b 1 ^^^ e0
    let e2 := dwordOf b 2 ^^^ e1
    wordsOf (aesStepB a b) = [le32 e0, le32 e1, le32 e2, le32 (dwordOf b 3 ^^^ e2)] := by
  refine step_words b _ _ (fun i hi => ?_)
  rw [dwordOf_splat _ _ 2 (by decide) i hi]
  exact (dwordOf_pack _ _ _ _).2.2.1

/-- Steps `8m .. 8m+3` of the expansion for `nk = 8`. -/
theorem expand8A (m : Nat) (pre : List (List Byte)) (hp : pre.length = 8 * m) (a b : M128) :
    (List.range' (8 * (m + 1)) 4).foldl (expandStep 8) (pre ++ wordsOf a ++ wordsOf b) =
      pre ++ wordsOf a ++ wordsOf b ++ wordsOf (aesStepA a b (gpow 0x02#8 m)) := by
  have hr : List.range' (8 * (m + 1)) 4 = [8 * (m + 1), 8 * (m + 1) + 1, 8 * (m + 1) + 2, 8 * (m + 1) + 3] := rfl
  rw [hr, stepA_words a b _]
  simp only [List.foldl_cons, List.foldl_nil, wordsOf, List.append_assoc, List.cons_append, List.nil_append]
  rw [roll8_first _ _ _ _ _ _ _ _ _ _ (by omega) (by omega), roll8_rest _ _ _ _ _ _ _ _ _ _ (by simp; omega) (by omega) (by omega),
    roll8_rest _ _ _ _ _ _ _ _ _ _ (by simp; omega) (by omega) (by omega), roll8_rest _ _ _ _ _ _ _ _ _ _ (by simp; omega) (by omega) (by omega)]
  simp only [le32_xor, le32_schedF, Nat.mul_div_cancel_left _ (show 0 < 8 by decide), List.append_assoc, List.cons_append, List.nil_append, rcon,
    Nat.add_sub_cancel]

/-- Steps `8m+4 .. 8m+7` of the expansion for `nk = 8`. -/
theorem expand8B (m : Nat) (pre : List (List Byte)) (hp : pre.length = 8 * m + 4) (b a : M128) :
    (List.range' (8 * (m + 1) + 4) 4).foldl (expandStep 8) (pre ++ wordsOf b ++ wordsOf a) =
      pre ++ wordsOf b ++ wordsOf a ++ wordsOf (aesStepB a b) := by
  have hr : List.range' (8 * (m + 1) + 4) 4 = [8 * (m + 1) + 4, 8 * (m + 1) + 5, 8 * (m + 1) + 6, 8 * (m + 1) + 7] := rfl
  rw [hr, stepB_words a b]
  simp only [List.foldl_cons, List.foldl_nil, wordsOf, List.append_assoc, List.cons_append, List.nil_append]
  rw [roll8_mid _ _ _ _ _ _ _ _ _ _ (by omega) (by omega), roll8_rest _ _ _ _ _ _ _ _ _ _ (by simp; omega) (by omega) (by omega),
    roll8_rest _ _ _ _ _ _ _ _ _ _ (by simp; omega) (by omega) (by omega), roll8_rest _ _ _ _ _ _ _ _ _ _ (by simp; omega) (by omega) (by omega)]
  simp only [le32_xor, le32_subWord, List.append_assoc, List.cons_append, List.nil_append]

theorem words_length (l : List M128) : (l.flatMap wordsOf).length = 4 * l.length := by
  induction l with
  | nil => rfl
  | cons a l ih => rw [List.flatMap_cons, List.length_append, ih, List.length_cons]; show 4 + _ = _; omega

theorem expand4' (m : Nat) (pre : List M128) (hp : pre.length = m) (k : M128) (hrc : roundConstants.getD m 0#8 = gpow 0x02#8 m) :
    (List.range' (4 * (m + 1)) 4).foldl (expandStep 4) ((pre ++ [k]).flatMap wordsOf) = (pre ++ [k] ++ [nextRoundKey m k]).flatMap wordsOf := by
  have := expand4 m (pre.flatMap wordsOf) (by rw [words_length, hp]) k hrc
  simpa [List.flatMap_append] using this

theorem expand8A' (m : Nat) (pre : List M128) (hp : pre.length = 2 * m) (a b : M128) (rc : Byte) (hrc : rc = gpow 0x02#8 m) :
    (List.range' (8 * (m + 1)) 4).foldl (expandStep 8) ((pre ++ [a, b]).flatMap wordsOf) = (pre ++ [a] ++ [b, aesStepA a b rc]).flatMap wordsOf := by
  have := expand8A m (pre.flatMap wordsOf) (by rw [words_length, hp]; omega) a b
  rw [hrc]
  simpa [List.flatMap_append] using this

theorem expand8B' (m : Nat) (pre : List M128) (hp : pre.length = 2 * m + 1) (b a : M128) :
    (List.range' (8 * (m + 1) + 4) 4).foldl (expandStep 8) ((pre ++ [b, a]).flatMap wordsOf) = (pre ++ [b] ++ [a, aesStepB a b]).flatMap wordsOf := by
  have := expand8B m (pre.flatMap wordsOf) (by rw [words_length, hp]; omega) b a
  simpa [List.flatMap_append] using this

theorem le32_load (l : List Byte) (c : Nat) (hc : c < 4) :
    le32 (dwordOf (loadBytes l) c) = [l.getD (4 * c) 0#8, l.getD (4 * c + 1) 0#8, l.getD (4 * c + 2) 0#8, l.getD (4 * c + 3) 0#8] := by
  have h : ∀ j, j < 4 → (dwordOf (loadBytes l) c).extractLsb' (8 * j) 8 = l.getD (4 * c + j) 0#8 := by
    intro j hj
    rw [← byteOf_load l (show 4 * c + j < 16 by omega), byteOf_dword, show (4 * c + j) / 4 = c by omega, show (4 * c + j) % 4 = j by omega]
  rw [le32]
  exact congrArg₂ _ (h 0 (by decide)) (congrArg₂ _ (h 1 (by decide)) (congrArg₂ _ (h 2 (by decide)) (congrArg₂ _ (h 3 (by decide)) rfl)))

theorem range4_split (a n : Nat) : List.range' a (4 + n) = List.range' a 4 ++ List.range' (a + 4) n := by
  rw [List.range'_append_1]

theorem keyExpansion_128 (key : List Byte) : keyExpansion 4 10 key = (aesChain128 (loadBytes key)).flatMap wordsOf := by
  have h0 : (List.range 4).map (fun i => [key.getD (4 * i) 0#8, key.getD (4 * i + 1) 0#8, key.getD (4 * i + 2) 0#8, key.getD (4 * i + 3) 0#8]) =
      ([] ++ [loadBytes key]).flatMap wordsOf := by
    rw [List.nil_append, List.flatMap_cons, List.flatMap_nil, List.append_nil, wordsOf, le32_load _ 0 (by decide), le32_load _ 1 (by decide),
      le32_load _ 2 (by decide), le32_load _ 3 (by decide)]
    rfl
  rw [keyExpansion, h0, aesChain128]
  generalize loadBytes key = k0
  show (List.range' 4 (4 + (4 + (4 + (4 + (4 + (4 + (4 + (4 + (4 + (4 + 0))))))))))).foldl _ _ = _
  simp only [range4_split, List.foldl_append]
  rw [expand4' 0 _ rfl _ (by decide +kernel), expand4' 1 _ rfl _ (by decide +kernel), expand4' 2 _ rfl _ (by decide +kernel),
    expand4' 3 _ rfl _ (by decide +kernel), expand4' 4 _ rfl _ (by decide +kernel), expand4' 5 _ rfl _ (by decide +kernel),
    expand4' 6 _ rfl _ (by decide +kernel), expand4' 7 _ rfl _ (by decide +kernel), expand4' 8 _ rfl _ (by decide +kernel),
    expand4' 9 _ rfl _ (by decide +kernel)]
  rfl

theorem keyExpansion_256 (key : List Byte) : keyExpansion 8 14 key = (aesChain256 (loadBytes key) (loadBytes (key.drop 16))).flatMap wordsOf := by
  have h0 : (List.range 8).map (fun i => [key.getD (4 * i) 0#8, key.getD (4 * i + 1) 0#8, key.getD (4 * i + 2) 0#8, key.getD (4 * i + 3) 0#8]) =
      ([] ++ [loadBytes key, loadBytes (key.drop 16)]).flatMap wordsOf := by
    have hd : ∀ i, (key.drop 16).getD i 0#8 = key.getD (16 + i) 0#8 := by
      intro i; rw [List.getD_eq_getElem?_getD, List.getD_eq_getElem?_getD, List.getElem?_drop]
    rw [List.nil_append, List.flatMap_cons, List.flatMap_cons, List.flatMap_nil, List.append_nil, wordsOf, wordsOf, le32_load _ 0 (by decide),
      le32_load _ 1 (by decide), le32_load _ 2 (by decide), le32_load _ 3 (by decide), le32_load _ 0 (by decide), le32_load _ 1 (by decide),
      le32_load _ 2 (by decide), le32_load _ 3 (by decide)]
    simp only [hd]
    rfl
  rw [keyExpansion, h0, aesChain256]
  generalize loadBytes key = a
  generalize loadBytes (key.drop 16) = b
  show (List.range' 8 (4 + (4 + (4 + (4 + (4 + (4 + (4 + (4 + (4 + (4 + (4 + (4 + (4 + 0)))))))))))))).foldl _ _ = _
  simp only [range4_split, List.foldl_append]
  rw [expand8A' 0 _ rfl _ _ 0x01#8 (by decide +kernel), expand8B' 0 _ rfl _ _, expand8A' 1 _ rfl _ _ 0x02#8 (by decide +kernel), expand8B' 1 _ rfl _ _,
    expand8A' 2 _ rfl _ _ 0x04#8 (by decide +kernel), expand8B' 2 _ rfl _ _, expand8A' 3 _ rfl _ _ 0x08#8 (by decide +kernel), expand8B' 3 _ rfl _ _,
    expand8A' 4 _ rfl _ _ 0x10#8 (by decide +kernel), expand8B' 4 _ rfl _ _, expand8A' 5 _ rfl _ _ 0x20#8 (by decide +kernel), expand8B' 5 _ rfl _ _,
    expand8A' 6 _ rfl _ _ 0x40#8 (by decide +kernel)]
  rfl

/-- Round keys listed word by word are the round keys of the cipher. -/
theorem keyAt_words : ∀ (l : List M128) (n : Nat), n < l.length → KeyAt (l.getD n 0#128) (l.flatMap wordsOf) n := by
  intro l
  induction l with
  | nil => intro n h; exact absurd h (by simp)
  | cons k l ih =>
    intro n hn r c hr hc
    rw [List.flatMap_cons]
    cases n with
    | zero =>
      rw [List.getD_append _ _ _ _ (by show _ < 4; omega)]
      rw [List.getD_cons_zero, byteOf_dword, show (r + 4 * c) / 4 = c by omega, show (r + 4 * c) % 4 = r by omega, Nat.mul_zero, Nat.zero_add]
      match r, hr, c, hc with
      | 0, _, 0, _ => rfl
      | 0, _, 1, _ => rfl
      | 0, _, 2, _ => rfl
      | 0, _, 3, _ => rfl
      | 1, _, 0, _ => rfl
      | 1, _, 1, _ => rfl
      | 1, _, 2, _ => rfl
      | 1, _, 3, _ => rfl
      | 2, _, 0, _ => rfl
      | 2, _, 1, _ => rfl
      | 2, _, 2, _ => rfl
      | 2, _, 3, _ => rfl
      | 3, _, 0, _ => rfl
      | 3, _, 1, _ => rfl
      | 3, _, 2, _ => rfl
      | 3, _, 3, _ => rfl
    | succ n =>
      rw [List.getD_append_right _ _ _ _ (by show 4 ≤ _; omega), List.getD_cons_succ]
      have : 4 * (n + 1) + c - (wordsOf k).length = 4 * n + c := by show _ - 4 = _; omega
      rw [this]
      exact ih n (by simpa using hn) r c hr hc

/-! ### Inverses of the steps -/

theorem subByte_injective : Function.Injective subByte := by
  intro a b h
  obtain ⟨n, hn, rfl⟩ := byte_ofNat a
  obtain ⟨m, hm, rfl⟩ := byte_ofNat b
  rw [← unsub_table n hn, ← unsub_table m hm, h]

theorem xtime_xor (a b : Byte) : xtime (a ^^^ b) = xtime a ^^^ xtime b := by
  rw [xtime, xtime, xtime, BitVec.shiftLeft_xor_distrib, BitVec.msb_xor]
  generalize a <<< 1 = x
  generalize b <<< 1 = y
  cases a.msb <;> cases b.msb <;> simp only [Bool.xor_self, Bool.xor_false, Bool.xor_true, Bool.not_false, Bool.false_xor, Bool.true_xor, if_true,
    Bool.false_eq_true, if_false, BitVec.xor_zero, Bool.not_true]
  · simp only [BitVec.xor_assoc]
  · simp only [BitVec.xor_assoc, BitVec.xor_comm y]
  · rw [BitVec.xor_assoc x, BitVec.xor_comm y 27#8, ← BitVec.xor_assoc 27#8 27#8 y, BitVec.xor_self, BitVec.zero_xor]

theorem xor_four (a b c d a' b' c' d' : Byte) : (a ^^^ a') ^^^ (b ^^^ b') ^^^ (c ^^^ c') ^^^ (d ^^^ d') = (a ^^^ b ^^^ c ^^^ d) ^^^ (a' ^^^ b' ^^^ c' ^^^ d') := by
  ac_rfl

theorem mixByte_xor (a b c d a' b' c' d' : Byte) :
    mixByte (a ^^^ a') (b ^^^ b') (c ^^^ c') (d ^^^ d') = mixByte a b c d ^^^ mixByte a' b' c' d' := by
  simp only [mixByte, xtime_xor]; ac_rfl

theorem unmixByte_xor (a b c d a' b' c' d' : Byte) :
    unmixByte (a ^^^ a') (b ^^^ b') (c ^^^ c') (d ^^^ d') = unmixByte a b c d ^^^ unmixByte a' b' c' d' := by
  simp only [unmixByte, xtime_xor]; ac_rfl

/-- The column `unmix (mix (a, b, c, d))` has first byte `a`. -/
theorem unmix_mix (a b c d : Byte) :
    unmixByte (mixByte a b c d) (mixByte b c d a) (mixByte c d a b) (mixByte d a b c) = a := by
  have split : ∀ a b c d : Byte, mixByte a b c d = mixByte a 0#8 0#8 0#8 ^^^ mixByte 0#8 b 0#8 0#8 ^^^ mixByte 0#8 0#8 c 0#8 ^^^ mixByte 0#8 0#8 0#8 d := by
    intro a b c d
    rw [← mixByte_xor, ← mixByte_xor, ← mixByte_xor]
    simp only [BitVec.xor_zero, BitVec.zero_xor]
  rw [split a b c d, split b c d a, split c d a b, split d a b c]
  have re : ∀ (x0 x1 x2 x3 y0 y1 y2 y3 z0 z1 z2 z3 w0 w1 w2 w3 : Byte),
      unmixByte (x0 ^^^ x1 ^^^ x2 ^^^ x3) (y0 ^^^ y1 ^^^ y2 ^^^ y3) (z0 ^^^ z1 ^^^ z2 ^^^ z3) (w0 ^^^ w1 ^^^ w2 ^^^ w3) =
      unmixByte x0 y3 z2 w1 ^^^ unmixByte x1 y0 z3 w2 ^^^ unmixByte x2 y1 z0 w3 ^^^ unmixByte x3 y2 z1 w0 := by
    intros
    simp only [← unmixByte_xor]
    congr 1 <;> ac_rfl
  rw [re]
  obtain ⟨n, hn, rfl⟩ := byte_ofNat a
  obtain ⟨m, hm, rfl⟩ := byte_ofNat b
  obtain ⟨k, hk, rfl⟩ := byte_ofNat c
  obtain ⟨l, hl, rfl⟩ := byte_ofNat d
  rw [(unmix_table n hn).1, (unmix_table m hm).2.1, (unmix_table k hk).2.2.1, (unmix_table l hl).2.2.2]
  simp only [BitVec.xor_zero]

theorem niMixColumns_injective : Function.Injective niMixColumns := by
  intro u v h
  have hb : ∀ i, i < 16 → mixByte (byteOf u i) (byteOf u (i / 4 * 4 + (i + 1) % 4)) (byteOf u (i / 4 * 4 + (i + 2) % 4)) (byteOf u (i / 4 * 4 + (i + 3) % 4)) =
      mixByte (byteOf v i) (byteOf v (i / 4 * 4 + (i + 1) % 4)) (byteOf v (i / 4 * 4 + (i + 2) % 4)) (byteOf v (i / 4 * 4 + (i + 3) % 4)) := by
    intro i hi
    have := congrArg (fun w => byteOf w i) h
    simp only [niMixColumns, byteOf_packBytes _ hi] at this
    exact this
  apply m128_ext_byte
  intro i hi
  have e1 := hb i hi
  have e2 := hb (i / 4 * 4 + (i + 1) % 4) (by omega)
  have e3 := hb (i / 4 * 4 + (i + 2) % 4) (by omega)
  have e4 := hb (i / 4 * 4 + (i + 3) % 4) (by omega)
  have n1 : ∀ j, (i / 4 * 4 + (i + j) % 4) / 4 = i / 4 := by intro j; omega
  have n2 : ∀ j k, (i / 4 * 4 + (i + j) % 4 + k) % 4 = (i + (j + k) % 4) % 4 := by intro j k; omega
  rw [n1, n2, n2, n2] at e2 e3 e4
  norm_num only at e2 e3 e4
  rw [show i / 4 * 4 + (i + 0) % 4 = i by omega] at e2 e3 e4
  rw [← unmix_mix (byteOf u i) (byteOf u (i / 4 * 4 + (i + 1) % 4)) (byteOf u (i / 4 * 4 + (i + 2) % 4)) (byteOf u (i / 4 * 4 + (i + 3) % 4)),
    e1, e2, e3, e4, unmix_mix]

theorem niSubShift_injective : Function.Injective (fun v => niSubBytes (niShiftRows v)) := by
  intro u v h
  have hb : ∀ i, i < 16 → byteOf u ((i + 4 * (i % 4)) % 16) = byteOf v ((i + 4 * (i % 4)) % 16) := by
    intro i hi
    have := congrArg (fun w => byteOf w i) h
    simp only [niSubBytes, niShiftRows, byteOf_packBytes _ hi] at this
    exact subByte_injective this
  apply m128_ext_byte
  intro i hi
  have := hb ((i + 12 * (i % 4)) % 16) (by omega)
  rwa [show ((i + 12 * (i % 4)) % 16 + 4 * ((i + 12 * (i % 4)) % 16 % 4)) % 16 = i by omega] at this

theorem xor_right_injective (k : M128) : Function.Injective (fun v : M128 => v ^^^ k) := by
  intro u v h
  have := congrArg (fun w => w ^^^ k) h
  simpa only [BitVec.xor_assoc, BitVec.xor_self, BitVec.xor_zero] using this

theorem aesenc_injective (k : M128) : Function.Injective (fun v => aesenc v k) :=
  fun _ _ h => niSubShift_injective (niMixColumns_injective (xor_right_injective k h))

theorem aesenclast_injective (k : M128) : Function.Injective (fun v => aesenclast v k) :=
  fun _ _ h => niSubShift_injective (xor_right_injective k h)

/-- `AesEncrypt` as a total function of the block, when there are enough round keys. -/
theorem aesEncrypt_perm (bits : Nat) (rk : List M128) (hl : aesRounds bits < rk.length) (hr : 1 ≤ aesRounds bits) :
    ∃ E : M128 → M128, Function.Injective E ∧ ∀ b, aesEncrypt bits rk b = .ok (E b) := by
  have hloop : ∀ n, n ≤ aesRounds bits - 1 → ∃ E : M128 → M128, Function.Injective E ∧
      ∀ b, loop n b (fun block n => do return aesenc block (← rd rk (n + 1))) = .ok (E b) := by
    intro n
    induction n with
    | zero => intro _; exact ⟨id, Function.injective_id, fun _ => rfl⟩
    | succ n ih =>
      intro hn
      obtain ⟨E, hE, he⟩ := ih (by omega)
      refine ⟨fun b => aesenc (E b) (rk.getD (n + 1) 0#128), (aesenc_injective _).comp hE, fun b => ?_⟩
      rw [loop, he b]
      show (do return aesenc (E b) (← rd rk (n + 1)) : Out M128) = _
      rw [rd_ok_getD 0#128 (by omega)]; rfl
  obtain ⟨E, hE, he⟩ := hloop _ (le_refl _)
  refine ⟨fun b => aesenclast (E (b ^^^ rk.getD 0 0#128)) (rk.getD (aesRounds bits) 0#128),
    (aesenclast_injective _).comp (hE.comp (xor_right_injective _)), fun b => ?_⟩
  rw [aesEncrypt, rd_ok_getD 0#128 (by omega)]
  show (loop (aesRounds bits - 1) (b ^^^ rk.getD 0 0#128) _ >>= _) = _
  rw [he]
  show (rd rk (aesRounds bits) >>= _) = _
  rw [rd_ok_getD 0#128 (by omega)]; rfl

end Verif.Proof
