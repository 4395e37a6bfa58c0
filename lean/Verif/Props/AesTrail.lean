import Verif.Proof.AesTrail
import Verif.Props.Aes

/-! C149: how differences spread through the rounds of AES. -/

namespace Verif.Props
open Verif Verif.Model Verif.Proof

/-- The register `block` in `AesEncrypt` (include/caligo/aes.h:26-38) before round `k + 1`: the plaintext with the first round key added, after `k` times `aesenc`. -/
def beforeRound (rk : List M128) (block : M128) : Nat → M128
  | 0 => block ^^^ rk.getD 0 0#128
  | k + 1 => aesenc (beforeRound rk block k) (rk.getD (k + 1) 0#128)

/-- The number of bytes in which two registers differ: so many of the sixteen look-ups in the S-box see a difference. -/
def active (x y : M128) : Nat := ((List.range 16).filter (fun i => byteOf x i ≠ byteOf y i)).length

/-- `AesEncrypt` goes through these registers. -/
theorem encrypt_rounds (bits : Nat) (rk : List M128) (block : M128) (hl : aesRounds bits < rk.length) (hr : 1 ≤ aesRounds bits) :
    aesEncrypt bits rk block = .ok (aesenclast (beforeRound rk block (aesRounds bits - 1)) (rk.getD (aesRounds bits) 0#128)) := by
  have hloop : ∀ n, n ≤ aesRounds bits - 1 → loop n (block ^^^ rk.getD 0 0#128) (fun block n => do return aesenc block (← rd rk (n + 1))) = .ok (beforeRound rk block n) := by
    intro n
    induction n with
    | zero => intro _; rfl
    | succ n ih =>
      intro hn
      rw [loop, ih (by omega)]
      show (do return aesenc (beforeRound rk block n) (← rd rk (n + 1)) : Out M128) = _
      rw [rd_ok_getD 0#128 (by omega)]; rfl
  rw [aesEncrypt, rd_ok_getD 0#128 (by omega)]
  show (loop (aesRounds bits - 1) (block ^^^ rk.getD 0 0#128) _ >>= _) = _
  rw [hloop _ (le_refl _)]
  show (rd rk (aesRounds bits) >>= _) = _
  rw [rd_ok_getD 0#128 (by omega)]; rfl

/-- 1 where two registers differ, by row and column. -/
def dif (x y : M128) (r c : Nat) : Nat := if byteOf x (r + 4 * c) = byteOf y (r + 4 * c) then 0 else 1

/-- The sum of a column. -/
def wcol (p : Nat → Nat → Nat) (c : Nat) : Nat := p 0 c + p 1 c + p 2 c + p 3 c
/-- The rows shifted. -/
def sh (p : Nat → Nat → Nat) (r c : Nat) : Nat := p r ((c + r) % 4)
/-- The sum of all. -/
def wall (p : Nat → Nat → Nat) : Nat := wcol p 0 + wcol p 1 + wcol p 2 + wcol p 3
/-- The number of columns that are not zero. -/
def cols (p : Nat → Nat → Nat) : Nat := min 1 (wcol p 0) + min 1 (wcol p 1) + min 1 (wcol p 2) + min 1 (wcol p 3)

theorem active_wall (x y : M128) : active x y = wall (dif x y) := by
  have e : ∀ l : List Nat, (l.filter (fun i => byteOf x i ≠ byteOf y i)).length = (l.map (fun i => if byteOf x i = byteOf y i then 0 else 1)).sum := by
    intro l
    induction l with
    | nil => rfl
    | cons a l ih =>
      rw [List.filter_cons, List.map_cons, List.sum_cons, ← ih]
      by_cases h : byteOf x a = byteOf y a <;> simp [h]; omega
  rw [active, e]
  have r : List.range 16 = [0, 1, 2, 3, 4, 5, 6, 7, 8, 9, 10, 11, 12, 13, 14, 15] := rfl
  rw [r]
  simp only [List.map_cons, List.map_nil, List.sum_cons, List.sum_nil, wall, wcol, dif, Nat.reduceMul, Nat.reduceAdd]
  omega

theorem dif_le (x y : M128) (r c : Nat) : dif x y r c ≤ 1 := by unfold dif; split <;> omega

/-- One round: in every column the differences before and after `MixColumns` are both none, or five together. -/
theorem round_column (x y k : M128) (c : Nat) (hc : c < 4) :
    (wcol (sh (dif x y)) c = 0 ∧ wcol (dif (aesenc x k) (aesenc y k)) c = 0) ∨ 5 ≤ wcol (sh (dif x y)) c + wcol (dif (aesenc x k) (aesenc y k)) c := by
  let u := fun r => subByte (byteOf x (r + 4 * ((c + r) % 4))) ^^^ subByte (byteOf y (r + 4 * ((c + r) % 4)))
  have hu : ∀ r, r < 4 → sh (dif x y) r c = nz (u r) := by
    intro r _
    simp only [sh, dif, nz, u, xor_zero_iff]
    by_cases h : byteOf x (r + 4 * ((c + r) % 4)) = byteOf y (r + 4 * ((c + r) % 4))
    · rw [if_pos h, if_pos (by rw [h])]
    · rw [if_neg h, if_neg (fun e => h (subByte_injective e))]
  have byte : ∀ (v : M128) r, r < 4 → byteOf (aesenc v k) (r + 4 * c) = mixByte (subByte (byteOf v (r + 4 * ((c + r) % 4))))
      (subByte (byteOf v ((r + 1) % 4 + 4 * ((c + (r + 1) % 4) % 4)))) (subByte (byteOf v ((r + 2) % 4 + 4 * ((c + (r + 2) % 4) % 4))))
      (subByte (byteOf v ((r + 3) % 4 + 4 * ((c + (r + 3) % 4) % 4)))) ^^^ byteOf k (r + 4 * c) := by
    intro v r hr
    have ss : ∀ i, i < 16 → byteOf (niSubBytes (niShiftRows v)) i = subByte (byteOf v ((i + 4 * (i % 4)) % 16)) := fun i hi => by
      rw [niSubBytes, byteOf_packBytes _ hi, niShiftRows, byteOf_packBytes _ hi]
    have e : ∀ j, (r + 4 * c) / 4 * 4 + (r + 4 * c + j) % 4 = (r + j) % 4 + 4 * c := by intro j; omega
    have e' : ∀ q, q < 4 → (q + 4 * c + 4 * ((q + 4 * c) % 4)) % 16 = q + 4 * ((c + q) % 4) := by intro q hq; omega
    rw [aesenc, byteOf_xor, niMixColumns, byteOf_packBytes _ (by omega), e, e, e, ss _ (by omega), ss _ (by omega), ss _ (by omega), ss _ (by omega),
      e' _ hr, e' _ (Nat.mod_lt _ (by decide)), e' _ (Nat.mod_lt _ (by decide)), e' _ (Nat.mod_lt _ (by decide))]
  have ht : ∀ r, r < 4 → dif (aesenc x k) (aesenc y k) r c = nz (mixByte (u r) (u ((r + 1) % 4)) (u ((r + 2) % 4)) (u ((r + 3) % 4))) := by
    intro r hr
    simp only [u, mixByte_xor, dif, nz, xor_zero_iff]
    rw [byte x r hr, byte y r hr]
    congr 1
    have : ∀ a b c : Byte, (a ^^^ c = b ^^^ c) = (a = b) := by
      intro a b c
      refine propext ⟨fun h => ?_, fun h => by rw [h]⟩
      have := congrArg (· ^^^ c) h
      simpa only [BitVec.xor_assoc, BitVec.xor_self, BitVec.xor_zero] using this
    exact this _ _ _
  simp only [wcol]
  rw [hu 0 (by omega), hu 1 (by omega), hu 2 (by omega), hu 3 (by omega), ht 0 (by omega), ht 1 (by omega), ht 2 (by omega), ht 3 (by omega)]
  simp only [Nat.reduceAdd, Nat.reduceMod]
  by_cases hz : u 0 = 0#8 ∧ u 1 = 0#8 ∧ u 2 = 0#8 ∧ u 3 = 0#8
  · obtain ⟨h0, h1, h2, h3⟩ := hz
    left
    rw [h0, h1, h2, h3]
    decide
  · right
    exact branch _ _ _ _ hz

/-- The bytes of one shifted column come from different columns. -/
theorem sh_cols (p : Nat → Nat → Nat) (hp : ∀ r c, p r c ≤ 1) (c : Nat) (hc : c < 4) : wcol (sh p) c ≤ cols p := by
  have h0 := hp 0; have h1 := hp 1; have h2 := hp 2; have h3 := hp 3
  interval_cases c <;> simp only [wcol, sh, cols, Nat.reduceAdd, Nat.reduceMod]
  · have := h0 0; have := h1 1; have := h2 2; have := h3 3; omega
  · have := h0 1; have := h1 2; have := h2 3; have := h3 0; omega
  · have := h0 2; have := h1 3; have := h2 0; have := h3 1; omega
  · have := h0 3; have := h1 0; have := h2 1; have := h3 2; omega

/-- The bytes of one column go to different columns. -/
theorem cols_sh (p : Nat → Nat → Nat) (hp : ∀ r c, p r c ≤ 1) (c : Nat) (hc : c < 4) : wcol p c ≤ cols (sh p) := by
  have h0 := hp 0; have h1 := hp 1; have h2 := hp 2; have h3 := hp 3
  interval_cases c <;> simp only [wcol, sh, cols, Nat.reduceAdd, Nat.reduceMod]
  · have := h0 0; have := h1 0; have := h2 0; have := h3 0; omega
  · have := h0 1; have := h1 1; have := h2 1; have := h3 1; omega
  · have := h0 2; have := h1 2; have := h2 2; have := h3 2; omega
  · have := h0 3; have := h1 3; have := h2 3; have := h3 3; omega

theorem wall_sh (p : Nat → Nat → Nat) : wall (sh p) = wall p := by
  simp only [wall, wcol, sh, Nat.reduceAdd, Nat.reduceMod]; omega

/-- Two rounds: five for every column with differences. -/
theorem two_rounds (x y k : M128) : 5 * cols (dif (aesenc x k) (aesenc y k)) ≤ wall (dif x y) + wall (dif (aesenc x k) (aesenc y k)) ∧
    cols (sh (dif x y)) = cols (dif (aesenc x k) (aesenc y k)) := by
  rw [← wall_sh (dif x y)]
  have h0 := round_column x y k 0 (by decide)
  have h1 := round_column x y k 1 (by decide)
  have h2 := round_column x y k 2 (by decide)
  have h3 := round_column x y k 3 (by decide)
  have b : ∀ c, wcol (sh (dif x y)) c ≤ 4 ∧ wcol (dif (aesenc x k) (aesenc y k)) c ≤ 4 := fun c => by
    have d := dif_le x y
    have d' := dif_le (aesenc x k) (aesenc y k)
    simp only [wcol, sh]
    have := d 0 ((c + 0) % 4); have := d 1 ((c + 1) % 4); have := d 2 ((c + 2) % 4); have := d 3 ((c + 3) % 4)
    have := d' 0 c; have := d' 1 c; have := d' 2 c; have := d' 3 c
    omega
  have b0 := b 0; have b1 := b 1; have b2 := b 2; have b3 := b 3
  simp only [wall, cols]
  generalize wcol (sh (dif x y)) 0 = u0 at *
  generalize wcol (sh (dif x y)) 1 = u1 at *
  generalize wcol (sh (dif x y)) 2 = u2 at *
  generalize wcol (sh (dif x y)) 3 = u3 at *
  generalize wcol (dif (aesenc x k) (aesenc y k)) 0 = v0 at *
  generalize wcol (dif (aesenc x k) (aesenc y k)) 1 = v1 at *
  generalize wcol (dif (aesenc x k) (aesenc y k)) 2 = v2 at *
  generalize wcol (dif (aesenc x k) (aesenc y k)) 3 = v3 at *
  clear b
  constructor
  · rcases h0 with h0 | h0 <;> rcases h1 with h1 | h1 <;> rcases h2 with h2 | h2 <;> rcases h3 with h3 | h3 <;> omega
  · rcases h0 with h0 | h0 <;> rcases h1 with h1 | h1 <;> rcases h2 with h2 | h2 <;> rcases h3 with h3 | h3 <;> omega

theorem ne_wall {x y : M128} (h : x ≠ y) : ∃ c, c < 4 ∧ 1 ≤ wcol (dif x y) c := by
  by_contra hn
  apply h
  apply m128_ext_byte
  intro i hi
  by_contra hb
  apply hn
  refine ⟨i / 4, by omega, ?_⟩
  have e : dif x y (i % 4) (i / 4) = 1 := by
    unfold dif; rw [show i % 4 + 4 * (i / 4) = i by omega, if_neg hb]
  have hr : i % 4 < 4 := Nat.mod_lt _ (by decide)
  unfold wcol
  generalize i % 4 = r at *
  interval_cases r <;> omega

theorem beforeRound_ne (rk : List M128) {x y : M128} (h : x ≠ y) (k : Nat) : beforeRound rk x k ≠ beforeRound rk y k := by
  induction k with
  | zero => exact fun e => h (xor_right_injective _ e)
  | succ k ih => exact fun e => ih (aesenc_injective _ e)

theorem cols_pos {x y : M128} (h : x ≠ y) : 1 ≤ cols (dif x y) := by
  obtain ⟨c, hc, h1⟩ := ne_wall h
  unfold cols
  interval_cases c <;> omega

/-- C149, two rounds: two different blocks make at least five look-ups in the S-box differ in every two consecutive rounds. -/
theorem C149_two (rk : List M128) (x y : M128) (h : x ≠ y) (k : Nat) :
    5 ≤ active (beforeRound rk x k) (beforeRound rk y k) + active (beforeRound rk x (k + 1)) (beforeRound rk y (k + 1)) := by
  have t := (two_rounds (beforeRound rk x k) (beforeRound rk y k) (rk.getD (k + 1) 0#128)).1
  have c := cols_pos (beforeRound_ne rk h (k + 1))
  rw [active_wall, active_wall]
  rw [beforeRound, beforeRound] at c ⊢
  omega

/-- A case that meets the hypotheses of `C149_two`. -/
example := C149_two [1#128, 2#128] 3#128 4#128 (by decide) 0

/-- C149, four rounds: at least 25 look-ups differ in every four consecutive rounds. -/
theorem C149_four (rk : List M128) (x y : M128) (h : x ≠ y) (k : Nat) :
    25 ≤ active (beforeRound rk x k) (beforeRound rk y k) + active (beforeRound rk x (k + 1)) (beforeRound rk y (k + 1)) +
      active (beforeRound rk x (k + 2)) (beforeRound rk y (k + 2)) + active (beforeRound rk x (k + 3)) (beforeRound rk y (k + 3)) := by
  have t1 := (two_rounds (beforeRound rk x k) (beforeRound rk y k) (rk.getD (k + 1) 0#128)).1
  obtain ⟨t2, t3⟩ := two_rounds (beforeRound rk x (k + 2)) (beforeRound rk y (k + 2)) (rk.getD (k + 3) 0#128)
  have e : ∀ v j, aesenc (beforeRound rk v j) (rk.getD (j + 1) 0#128) = beforeRound rk v (j + 1) := fun _ _ => rfl
  rw [e, e] at t1 t2 t3
  obtain ⟨c, hc, h1⟩ := ne_wall (beforeRound_ne rk h (k + 2))
  have r := round_column (beforeRound rk x (k + 1)) (beforeRound rk y (k + 1)) (rk.getD (k + 2) 0#128) c hc
  rw [e, e] at r
  have a := sh_cols _ (dif_le (beforeRound rk x (k + 1)) (beforeRound rk y (k + 1))) c hc
  have b := cols_sh _ (dif_le (beforeRound rk x (k + 2)) (beforeRound rk y (k + 2))) c hc
  rw [show k + 2 + 1 = k + 3 from rfl] at t2 t3
  rw [show k + 1 + 1 = k + 2 from rfl] at r
  rw [active_wall, active_wall, active_wall, active_wall]
  omega

/-- A case that meets the hypotheses of `C149_four`. -/
example := C149_four [1#128, 2#128, 3#128, 4#128] 3#128 4#128 (by decide) 0

/-! ### The S-box -/

/-- The values seen once, twice, three times, four times, as sets of bits; `none` when one is seen for the fifth time. -/
def tally : Option (Nat × Nat × Nat × Nat) → Nat → Option (Nat × Nat × Nat × Nat)
  | none, _ => none
  | some (m1, m2, m3, m4), d =>
    if !m1.testBit d then some (m1 ||| 1 <<< d, m2, m3, m4)
    else if !m2.testBit d then some (m1, m2 ||| 1 <<< d, m3, m4)
    else if !m3.testBit d then some (m1, m2, m3 ||| 1 <<< d, m4)
    else if !m4.testBit d then some (m1, m2, m3, m4 ||| 1 <<< d)
    else none

theorem tally_none (l : List Nat) : l.foldl tally none = none := by
  induction l with
  | nil => rfl
  | cons a l ih => rw [List.foldl_cons]; exact ih

theorem tally_count (b : Nat) : ∀ (l : List Nat) (m1 m2 m3 m4 : Nat), l.foldl tally (some (m1, m2, m3, m4)) ≠ none →
    l.count b + (m1.testBit b).toNat + (m2.testBit b).toNat + (m3.testBit b).toNat + (m4.testBit b).toNat ≤ 4 := by
  intro l
  induction l with
  | nil =>
    intro m1 m2 m3 m4 _
    have h : ∀ x : Bool, x.toNat ≤ 1 := by decide
    have := h (m1.testBit b); have := h (m2.testBit b); have := h (m3.testBit b); have := h (m4.testBit b)
    rw [List.count_nil]; omega
  | cons d l ih =>
    intro m1 m2 m3 m4 h
    have set : ∀ m : Nat, m.testBit d = false → ((m ||| 1 <<< d).testBit b).toNat = (m.testBit b).toNat + (if d = b then 1 else 0) := by
      intro m hm
      rw [Nat.testBit_or, Nat.one_shiftLeft, Nat.testBit_two_pow]
      by_cases e : d = b
      · subst e; simp [hm]
      · simp [e]
    have cc : (d :: l).count b = l.count b + (if d = b then 1 else 0) := by
      rw [List.count_cons]; by_cases e : d = b <;> simp [e]
    rw [cc]
    rw [List.foldl_cons, tally] at h
    split at h
    · next hb => have := ih _ _ _ _ h; rw [set m1 (by simpa using hb)] at this; omega
    split at h
    · next hb => have := ih _ _ _ _ h; rw [set m2 (by simpa using hb)] at this; omega
    split at h
    · next hb => have := ih _ _ _ _ h; rw [set m3 (by simpa using hb)] at this; omega
    split at h
    · next hb => have := ih _ _ _ _ h; rw [set m4 (by simpa using hb)] at this; omega
    · rw [tally_none] at h; exact absurd rfl h

/-- The S-box as one number, byte `x` being the entry for `x`. -/
def boxNat : Nat := 0x16bb54b00f2d99416842e6bf0d89a18cdf2855cee9871e9b948ed9691198f8e19e1dc186b95735610ef6034866b53e708a8bbd4b1f74dde8c6b4a61c2e2578ba08ae7a65eaf4566ca94ed58d6d37c8e779e4959162acd3c25c2406490a3a32e0db0b5ede14b8ee4688902a22dc4f816073195d643d7ea7c41744975fec130ccdd2f3ff1021dab6bcf5389d928f40a351a89f3c507f02f94585334d43fbaaefd0cf584c4a39becb6a5bb1fc20ed00d153842fe329b3d63b52a05a6e1b1a2c830975b227ebe28012079a059618c323c7041531d871f1e5a534ccf73f362693fdb7c072a49cafa2d4adf04759fa7dc982ca76abd7fe2b670130c56f6bf27b777c63

set_option maxRecDepth 100000 in
theorem boxNat_table : ∀ n < 256, (boxNat >>> (8 * n)) % 256 = (subByte (BitVec.ofNat 8 n)).toNat := by decide +kernel

/-- The difference of two look-ups. -/
def boxDiff (a x : Nat) : Nat := (boxNat >>> (8 * (x ^^^ a)) ^^^ boxNat >>> (8 * x)) % 256

/-- No difference of the outputs comes up more than four times. -/
def tallyOk (a : Nat) : Bool := a == 0 || (((List.range 256).map (boxDiff a)).foldl tally (some (0, 0, 0, 0))).isSome

set_option maxRecDepth 100000 in
theorem tally_0 : ∀ a < 32, tallyOk (0 + a) = true := by decide +kernel
set_option maxRecDepth 100000 in
theorem tally_1 : ∀ a < 32, tallyOk (32 + a) = true := by decide +kernel
set_option maxRecDepth 100000 in
theorem tally_2 : ∀ a < 32, tallyOk (64 + a) = true := by decide +kernel
set_option maxRecDepth 100000 in
theorem tally_3 : ∀ a < 32, tallyOk (96 + a) = true := by decide +kernel
set_option maxRecDepth 100000 in
theorem tally_4 : ∀ a < 32, tallyOk (128 + a) = true := by decide +kernel
set_option maxRecDepth 100000 in
theorem tally_5 : ∀ a < 32, tallyOk (160 + a) = true := by decide +kernel
set_option maxRecDepth 100000 in
theorem tally_6 : ∀ a < 32, tallyOk (192 + a) = true := by decide +kernel
set_option maxRecDepth 100000 in
theorem tally_7 : ∀ a < 32, tallyOk (224 + a) = true := by decide +kernel

theorem tally_all (a : Nat) (ha : a < 256) : tallyOk a = true := by
  have hd : a = 32 * (a / 32) + a % 32 := by omega
  have hm : a % 32 < 32 := Nat.mod_lt _ (by decide)
  have hq : a / 32 < 8 := by omega
  generalize a / 32 = q at *
  generalize a % 32 = r at *
  subst hd
  interval_cases q
  · exact tally_0 r hm
  · exact tally_1 r hm
  · exact tally_2 r hm
  · exact tally_3 r hm
  · exact tally_4 r hm
  · exact tally_5 r hm
  · exact tally_6 r hm
  · exact tally_7 r hm

theorem boxDiff_eq (a x : Nat) (ha : a < 256) (hx : x < 256) :
    boxDiff a x = (subByte (BitVec.ofNat 8 x ^^^ BitVec.ofNat 8 a) ^^^ subByte (BitVec.ofNat 8 x)).toNat := by
  have hxa : x ^^^ a < 256 := Nat.xor_lt_two_pow (n := 8) hx ha
  have e : BitVec.ofNat 8 x ^^^ BitVec.ofNat 8 a = BitVec.ofNat 8 (x ^^^ a) := by
    apply BitVec.eq_of_toNat_eq
    rw [BitVec.toNat_xor, BitVec.toNat_ofNat, BitVec.toNat_ofNat, BitVec.toNat_ofNat, Nat.mod_eq_of_lt hx, Nat.mod_eq_of_lt ha, Nat.mod_eq_of_lt hxa]
  have m : ∀ u v : Nat, (u ^^^ v) % 256 = u % 256 ^^^ v % 256 := fun u v => Nat.xor_mod_two_pow (n := 8)
  rw [e, BitVec.toNat_xor, ← boxNat_table _ hxa, ← boxNat_table _ hx, boxDiff, m]

/-- C149, the S-box: two inputs with a given difference that is not zero have a given difference of the outputs for at most four of the 256 inputs. -/
theorem C149_sbox (a b : Byte) (ha : a ≠ 0#8) :
    ((List.range 256).filter (fun x => subByte (BitVec.ofNat 8 x ^^^ a) ^^^ subByte (BitVec.ofNat 8 x) = b)).length ≤ 4 := by
  obtain ⟨n, hn, rfl⟩ := byte_ofNat a
  have t := tally_all n hn
  have n0 : n ≠ 0 := by rintro rfl; exact ha rfl
  simp only [tallyOk, Bool.or_eq_true, beq_iff_eq, n0, false_or] at t
  have c := tally_count b.toNat _ 0 0 0 0 (by intro h; rw [h] at t; exact absurd t (by decide))
  have e : ∀ l : List Nat, (∀ x ∈ l, x < 256) → (l.map (boxDiff n)).count b.toNat =
      (l.filter (fun x => subByte (BitVec.ofNat 8 x ^^^ BitVec.ofNat 8 n) ^^^ subByte (BitVec.ofNat 8 x) = b)).length := by
    intro l hl
    rw [List.count, List.countP_map, List.countP_eq_length_filter]
    refine congrArg List.length (List.filter_congr fun x hx => ?_)
    simp only [Function.comp, boxDiff_eq n x hn (hl x hx)]
    rw [Bool.eq_iff_iff, beq_iff_eq, decide_eq_true_iff]
    exact ⟨fun h => BitVec.eq_of_toNat_eq h, fun h => by rw [h]⟩
  rw [e _ (fun x hx => List.mem_range.mp hx)] at c
  omega

/-- A case that meets the hypotheses of `C149_sbox`. -/
example := C149_sbox 0x80#8 3#8 (by decide)

/-! ### The whole cipher -/

/-- The number of look-ups that differ in the first `n` rounds. -/
def activeSum (rk : List M128) (x y : M128) : Nat → Nat
  | 0 => 0
  | n + 1 => activeSum rk x y n + active (beforeRound rk x n) (beforeRound rk y n)

/-- C149, AES-128: of the 160 look-ups of one encryption at least 55 differ between two different blocks, for every key. -/
theorem C149_aes128 (junk key : List Byte) (s : List M128) (_hs : aesSchedule128 junk key = .ok s) (x y : M128) (h : x ≠ y) :
    55 ≤ activeSum s x y (aesRounds 128) := by
  have f0 := C149_four s x y h 0
  have f4 := C149_four s x y h 4
  have f8 := C149_two s x y h 8
  show 55 ≤ activeSum s x y 10
  simp only [activeSum, Nat.reduceAdd] at *
  omega

/-- C149, AES-256: of the 224 look-ups at least 80 differ. -/
theorem C149_aes256 (key : List Byte) (s : List M128) (_hs : aesSchedule256 key = .ok s) (x y : M128) (h : x ≠ y) :
    80 ≤ activeSum s x y (aesRounds 256) := by
  have f0 := C149_four s x y h 0
  have f4 := C149_four s x y h 4
  have f8 := C149_four s x y h 8
  have f12 := C149_two s x y h 12
  show 80 ≤ activeSum s x y 14
  simp only [activeSum, Nat.reduceAdd] at *
  omega

/-- The bound for two rounds is met: two blocks that differ in one byte, where five look-ups differ in two rounds. -/
example : (0#128 : M128) ≠ 1#128 ∧ active (beforeRound (List.replicate 15 0#128) 0#128 0) (beforeRound (List.replicate 15 0#128) 1#128 0) = 1 ∧
    active (beforeRound (List.replicate 15 0#128) 0#128 1) (beforeRound (List.replicate 15 0#128) 1#128 1) = 4 := by decide +kernel

/-- The bound for the S-box is met. -/
example : ((List.range 256).filter (fun x => subByte (BitVec.ofNat 8 x ^^^ 1#8) ^^^ subByte (BitVec.ofNat 8 x) = 0x1f#8)).length = 4 := by decide +kernel

/-- Schedules exist for all keys of the right size. -/
example (key : List Byte) (hk : key.length = 32) : ∃ s, aesSchedule256 key = .ok s := by
  rw [aesSchedule256, loadu, loadu, if_pos (by omega), if_pos (by omega)]; exact ⟨_, rfl⟩
example (junk key : List Byte) (hk : key.length = 16) : ∃ s, aesSchedule128 junk key = .ok s := by
  rw [aesSchedule128, if_pos (by omega)]; exact ⟨_, rfl⟩

end Verif.Props
