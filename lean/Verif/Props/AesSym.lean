import Verif.Props.RoundKeys

/-! C157: the rounds of AES treat the four columns alike, and the key schedule keeps that from showing. -/

namespace Verif.Props
open Verif.Model Verif.Proof

/-- The four columns of a block, rotated by `j`. -/
def turnCols (j : Nat) (v : M128) : M128 :=
  packDwords (dwordOf v (j % 4)) (dwordOf v ((1 + j) % 4)) (dwordOf v ((2 + j) % 4)) (dwordOf v ((3 + j) % 4))

theorem dword_turn (j : Nat) (v : M128) (i : Nat) (hi : i < 4) : dwordOf (turnCols j v) i = dwordOf v ((i + j) % 4) := by
  obtain ⟨h0, h1, h2, h3⟩ := dwordOf_pack (dwordOf v (j % 4)) (dwordOf v ((1 + j) % 4)) (dwordOf v ((2 + j) % 4)) (dwordOf v ((3 + j) % 4))
  rcases (by omega : i = 0 ∨ i = 1 ∨ i = 2 ∨ i = 3) with rfl | rfl | rfl | rfl
  · rw [Nat.zero_add]; exact h0
  · exact h1
  · exact h2
  · exact h3

theorem byte_turn (j : Nat) (v : M128) (i : Nat) (hi : i < 16) : byteOf (turnCols j v) i = byteOf v ((i + 4 * j) % 16) := by
  rw [byteOf_dword, dword_turn _ _ _ (by omega), byteOf_dword v, show (i + 4 * j) % 16 / 4 = (i / 4 + j) % 4 by omega,
    show (i + 4 * j) % 16 % 4 = i % 4 by omega]

theorem turn_xor' (j : Nat) (a b : M128) : turnCols j (a ^^^ b) = turnCols j a ^^^ turnCols j b :=
  m128_ext_dword fun i hi => by rw [dword_turn _ _ _ hi, dwordOf_xor, dwordOf_xor, dword_turn _ _ _ hi, dword_turn _ _ _ hi]

theorem turn_shiftRows (j : Nat) (v : M128) : niShiftRows (turnCols j v) = turnCols j (niShiftRows v) :=
  m128_ext_byte fun i hi => by
    rw [byte_turn _ _ _ hi, niShiftRows, niShiftRows, byteOf_packBytes _ hi, byteOf_packBytes _ (by omega), byte_turn _ _ _ (by omega)]
    congr 1; omega

theorem turn_subBytes (j : Nat) (v : M128) : niSubBytes (turnCols j v) = turnCols j (niSubBytes v) :=
  m128_ext_byte fun i hi => by
    rw [byte_turn _ _ _ hi, niSubBytes, niSubBytes, byteOf_packBytes _ hi, byteOf_packBytes _ (by omega), byte_turn _ _ _ hi]

theorem turn_mixColumns (j : Nat) (v : M128) : niMixColumns (turnCols j v) = turnCols j (niMixColumns v) :=
  m128_ext_byte fun i hi => by
    rw [byte_turn _ _ _ hi, niMixColumns, niMixColumns, byteOf_packBytes _ hi, byteOf_packBytes _ (by omega), byte_turn _ _ _ hi,
      byte_turn _ _ _ (by omega), byte_turn _ _ _ (by omega), byte_turn _ _ _ (by omega)]
    congr 2 <;> omega

theorem turn_aesenc (j : Nat) (s k : M128) : aesenc (turnCols j s) (turnCols j k) = turnCols j (aesenc s k) := by
  rw [aesenc, aesenc, turn_shiftRows, turn_subBytes, turn_mixColumns, turn_xor']

theorem turn_aesenclast (j : Nat) (s k : M128) : aesenclast (turnCols j s) (turnCols j k) = turnCols j (aesenclast s k) := by
  rw [aesenclast, aesenclast, turn_shiftRows, turn_subBytes, turn_xor']

theorem rd_map' {α β : Type} (f : α → β) (l : List α) (i : Nat) : rd (l.map f) i = (rd l i).map f := by
  rw [rd, rd, List.getElem?_map]
  cases l[i]? <;> rfl

theorem loop_turn (j : Nat) (ks : List M128) (n : Nat) (s : M128) :
    loop n (turnCols j s) (fun b n => do return aesenc b (← rd (ks.map (turnCols j)) (n + 1))) =
      (loop n s (fun b n => do return aesenc b (← rd ks (n + 1)))).map (turnCols j) := by
  induction n with
  | zero => rfl
  | succ n ih =>
    rw [loop, ih, loop]
    cases loop n s (fun b n => do return aesenc b (← rd ks (n + 1))) with
    | error e => rfl
    | ok b =>
      show (do return aesenc (turnCols j b) (← rd (ks.map (turnCols j)) (n + 1)) : Out M128) = Except.map (turnCols j) (do return aesenc b (← rd ks (n + 1)))
      rw [rd_map']
      cases rd ks (n + 1) with
      | error e => rfl
      | ok k => exact congrArg Except.ok (turn_aesenc j b k)

/-- The rounds do not tell the columns apart: whatever the round keys, a block with its columns rotated, under round keys with their columns
rotated, comes out with its columns rotated. -/
theorem C157_columns (bits j : Nat) (ks : List M128) (b : M128) :
    aesEncrypt bits (ks.map (turnCols j)) (turnCols j b) = (aesEncrypt bits ks b).map (turnCols j) := by
  unfold aesEncrypt
  rw [rd_map', rd_map']
  cases rd ks 0 with
  | error e => rfl
  | ok k =>
    show ((loop _ (turnCols j b ^^^ turnCols j k) _).bind _ : Out M128) = Except.map _ (((loop _ (b ^^^ k) _).bind _ : Out M128))
    rw [← turn_xor', loop_turn]
    cases loop (aesRounds bits - 1) (b ^^^ k) (fun b n => do return aesenc b (← rd ks (n + 1))) with
    | error e => rfl
    | ok s =>
      cases rd ks (aesRounds bits) with
      | error e => rfl
      | ok k' => exact congrArg Except.ok (turn_aesenclast j s k')

/-- With equal columns in all round keys, equal columns in the block stay equal. -/
theorem C157_equal (bits : Nat) (ks : List M128) (b c : M128) (hk : ∀ k ∈ ks, turnCols 1 k = k) (hb : turnCols 1 b = b)
    (h : aesEncrypt bits ks b = .ok c) : turnCols 1 c = c := by
  have := C157_columns bits 1 ks b
  rw [List.map_congr_left (g := id) hk, List.map_id, hb, h] at this
  exact (Except.ok.inj this).symm

example : ∃ c, aesEncrypt 128 (List.replicate 11 0x01020304010203040102030401020304#128) 0#128 = .ok c ∧ turnCols 1 c = c := by
  have hk : ∀ k ∈ List.replicate 11 0x01020304010203040102030401020304#128, turnCols 1 k = k := by
    intro k hk
    rw [List.eq_of_mem_replicate hk]
    decide +kernel
  have ho : (aesEncrypt 128 (List.replicate 11 0x01020304010203040102030401020304#128) 0#128).isOk = true := by decide +kernel
  cases h : aesEncrypt 128 (List.replicate 11 0x01020304010203040102030401020304#128) 0#128 with
  | error e => rw [h] at ho; exact Bool.noConfusion ho
  | ok c => exact ⟨c, rfl, C157_equal 128 _ _ c hk (by decide +kernel) h⟩

example : turnCols 1 0x00112233445566778899aabbccddeeff#128 = 0xccddeeff00112233445566778899aabb#128 := by decide +kernel

/-- Columns of a round key and of the next one of its chain, apart from the first. -/
def IsStep (k n : M128) : Prop :=
  dwordOf n 1 = dwordOf k 1 ^^^ dwordOf n 0 ∧ dwordOf n 2 = dwordOf k 2 ^^^ dwordOf n 1 ∧ dwordOf n 3 = dwordOf k 3 ^^^ dwordOf n 2

theorem isStep_words {k n : M128} {e0 : U32} (h : wordsOf n = [le32 e0, le32 (dwordOf k 1 ^^^ e0), le32 (dwordOf k 2 ^^^ (dwordOf k 1 ^^^ e0)),
    le32 (dwordOf k 3 ^^^ (dwordOf k 2 ^^^ (dwordOf k 1 ^^^ e0)))]) : IsStep k n := by
  simp only [wordsOf, List.cons.injEq, and_true] at h
  obtain ⟨h0, h1, h2, h3⟩ := h
  have e0 := le32_inj h0
  have e1 := le32_inj h1
  have e2 := le32_inj h2
  have e3 := le32_inj h3
  rw [← e0] at e1 e2 e3
  rw [← e1] at e2 e3
  rw [← e2] at e3
  exact ⟨e1, e2, e3⟩

theorem isStep_next (m : Nat) (k : M128) : IsStep k (nextRoundKey m k) := isStep_words (nextRoundKey_words m k _ rfl)
theorem isStep_A (a b : M128) (rc : Byte) : IsStep a (aesStepA a b rc) := isStep_words (stepA_words a b rc)
theorem isStep_B (a b : M128) : IsStep b (aesStepB a b) := isStep_words (stepB_words a b)

/-- The sum of the columns. -/
def colSum (k : M128) : U32 := dwordOf k 0 ^^^ dwordOf k 1 ^^^ dwordOf k 2 ^^^ dwordOf k 3

/-- A step of the schedule that still is one with the columns rotated. -/
theorem turned_step {j : Nat} {k n : M128} (hj : 0 < j) (hj4 : j < 4) (hs : IsStep k n) (h : IsStep (turnCols j k) (turnCols j n)) :
    colSum k = 0#32 := by
  obtain ⟨a1, a2, a3⟩ := h
  obtain ⟨b1, b2, b3⟩ := hs
  have key : dwordOf n 0 = dwordOf k 0 ^^^ dwordOf n 3 := by
    rcases (by omega : j = 1 ∨ j = 2 ∨ j = 3) with rfl | rfl | rfl
    · simpa [dword_turn] using a3
    · simpa [dword_turn] using a2
    · simpa [dword_turn] using a1
  rw [b3, b2, b1] at key
  rw [colSum]
  generalize dwordOf n 0 = n at key
  generalize dwordOf k 0 = c0 at *
  generalize dwordOf k 1 = c1 at *
  generalize dwordOf k 2 = c2 at *
  generalize dwordOf k 3 = c3 at *
  have : c0 ^^^ c1 ^^^ c2 ^^^ c3 = (c0 ^^^ (c3 ^^^ (c2 ^^^ (c1 ^^^ n)))) ^^^ n := by
    apply BitVec.eq_of_getLsbD_eq
    intro i hi
    simp only [BitVec.getLsbD_xor]
    cases c0.getLsbD i <;> cases c1.getLsbD i <;> cases c2.getLsbD i <;> cases c3.getLsbD i <;> cases n.getLsbD i <;> rfl
  rw [this, ← key, BitVec.xor_self]

theorem bits4 {a b c d e : U32} (h : ∀ i, (a.getLsbD i ^^ (b.getLsbD i ^^ (c.getLsbD i ^^ d.getLsbD i))) = e.getLsbD i) : a ^^^ b ^^^ c ^^^ d = e := by
  apply BitVec.eq_of_getLsbD_eq
  intro i _
  rw [← h i]
  simp

theorem colSum_next {k n : M128} (hs : IsStep k n) : colSum n = dwordOf k 1 ^^^ dwordOf k 3 := by
  obtain ⟨b1, b2, b3⟩ := hs
  rw [colSum, b3, b2, b1]
  apply bits4
  intro i
  simp only [BitVec.getLsbD_xor]
  cases (dwordOf k 1).getLsbD i <;> cases (dwordOf k 2).getLsbD i <;> cases (dwordOf k 3).getLsbD i <;> cases (dwordOf n 0).getLsbD i <;> rfl

theorem xor_zero_eq {a b : U32} (h : a ^^^ b = 0#32) : a = b := BitVec.xor_eq_zero_iff.mp h

/-- Three steps in a row between sums that are zero start at zero. -/
theorem four_steps {k n p q : M128} (hn : IsStep k n) (hp : IsStep n p) (hq : IsStep p q) (h0 : colSum k = 0#32) (h1 : colSum n = 0#32)
    (h2 : colSum p = 0#32) (h3 : colSum q = 0#32) : k = 0#128 := by
  rw [colSum_next hn] at h1
  rw [colSum_next hp] at h2
  rw [colSum_next hq] at h3
  obtain ⟨b1, b2, b3⟩ := hn
  obtain ⟨d1, d2, d3⟩ := hp
  have e13 := xor_zero_eq h1
  have f13 := xor_zero_eq h2
  have g13 := xor_zero_eq h3
  generalize dwordOf p 0 = p0 at *
  generalize dwordOf p 1 = p1 at *
  generalize dwordOf p 2 = p2 at *
  generalize dwordOf p 3 = p3 at *
  generalize dwordOf n 0 = n0 at *
  generalize dwordOf n 1 = n1 at *
  generalize dwordOf n 2 = n2 at *
  generalize dwordOf n 3 = n3 at *
  rw [colSum] at h0
  have z : dwordOf k 0 = 0#32 ∧ dwordOf k 1 = 0#32 ∧ dwordOf k 2 = 0#32 ∧ dwordOf k 3 = 0#32 := by
    generalize dwordOf k 0 = c0 at *
    generalize dwordOf k 1 = c1 at *
    generalize dwordOf k 2 = c2 at *
    generalize dwordOf k 3 = c3 at *
    subst e13 f13 g13
    have bit : ∀ i, c0.getLsbD i = false ∧ c1.getLsbD i = false ∧ c2.getLsbD i = false := by
      intro i
      have t (a b : U32) (h : a = b) : a.getLsbD i = b.getLsbD i := by rw [h]
      have h0 := t _ _ h0
      have b1 := t _ _ b1
      have b2 := t _ _ b2
      have b3 := t _ _ b3
      have d1 := t _ _ d1
      have d2 := t _ _ d2
      have d3 := t _ _ d3
      simp only [BitVec.getLsbD_xor, BitVec.getLsbD_zero] at h0 b1 b2 b3 d1 d2 d3
      revert h0 b1 b2 b3 d1 d2 d3
      generalize c0.getLsbD i = x0
      generalize c1.getLsbD i = x1
      generalize c2.getLsbD i = x2
      generalize n0.getLsbD i = y0
      generalize n1.getLsbD i = y1
      generalize n2.getLsbD i = y2
      generalize p0.getLsbD i = w0
      generalize p1.getLsbD i = w1
      generalize p2.getLsbD i = w2
      cases x0 <;> cases x1 <;> cases x2 <;> cases y0 <;> cases y1 <;> cases y2 <;> cases w0 <;> cases w1 <;> cases w2 <;> simp
    refine ⟨?_, ?_, ?_, ?_⟩ <;> (apply BitVec.eq_of_getLsbD_eq; intro i _; rw [BitVec.getLsbD_zero])
    · exact (bit i).1
    · exact (bit i).2.1
    · exact (bit i).2.2
    · exact (bit i).2.1
  obtain ⟨z0, z1, z2, z3⟩ := z
  apply m128_ext_dword
  intro i hi
  have hz : dwordOf 0#128 i = 0#32 := by rw [dwordOf]; simp
  rw [hz]
  rcases (by omega : i = 0 ∨ i = 1 ∨ i = 2 ∨ i = 3) with rfl | rfl | rfl | rfl
  · exact z0
  · exact z1
  · exact z2
  · exact z3

/-- The key schedule does tell them apart: no AES-128 key has the round keys of another, or its own, with the columns rotated. -/
theorem C157_schedule128 (junk junk' key key' : List Byte) (hk : key.length = 16) (hk' : key'.length = 16) (j : Nat) (hj : 0 < j) (hj4 : j < 4)
    (ks ks' : List M128) (h : aesSchedule128 junk key = .ok ks) (h' : aesSchedule128 junk' key' = .ok ks') : ks' ≠ ks.map (turnCols j) := by
  rw [sched128 _ _ hk] at h
  rw [sched128 _ _ hk'] at h'
  obtain rfl := Except.ok.inj h
  obtain rfl := Except.ok.inj h'
  generalize loadBytes key = a
  generalize loadBytes key' = b
  intro he
  simp only [aesChain128, List.map_cons, List.map_nil, List.cons.injEq, and_true] at he
  obtain ⟨e0, e1, e2, e3, e4, e5, -⟩ := he
  have st : ∀ {m : Nat} {x y : M128}, x = turnCols j y → nextRoundKey m x = turnCols j (nextRoundKey m y) → colSum y = 0#32 := by
    intro m x y hx hn
    refine turned_step hj hj4 (isStep_next m y) ?_
    rw [← hn, ← hx]
    exact isStep_next m x
  have s0 := st e0 e1
  have s1 := st e1 e2
  have s2 := st e2 e3
  have s3 := st e3 e4
  have s4 := st e4 e5
  have z0 := four_steps (isStep_next 0 _) (isStep_next 1 _) (isStep_next 2 _) s0 s1 s2 s3
  have z1 := four_steps (isStep_next 1 _) (isStep_next 2 _) (isStep_next 3 _) s1 s2 s3 s4
  rw [z0] at z1
  exact absurd z1 (by decide +kernel)

/-- The same for AES-256. -/
theorem C157_schedule256 (key key' : List Byte) (hk : key.length = 32) (hk' : key'.length = 32) (j : Nat) (hj : 0 < j) (hj4 : j < 4)
    (ks ks' : List M128) (h : aesSchedule256 key = .ok ks) (h' : aesSchedule256 key' = .ok ks') : ks' ≠ ks.map (turnCols j) := by
  rw [sched256 _ hk] at h
  rw [sched256 _ hk'] at h'
  obtain rfl := Except.ok.inj h
  obtain rfl := Except.ok.inj h'
  generalize loadBytes key = a
  generalize loadBytes key' = a'
  generalize loadBytes (key.drop 16) = b
  generalize loadBytes (key'.drop 16) = b'
  intro he
  simp only [aesChain256, List.map_cons, List.map_nil, List.cons.injEq, and_true] at he
  obtain ⟨a0, b0, a1, b1, a2, b2, a3, b3, a4, b4, a5, -⟩ := he
  have sa : ∀ {rc : Byte} {x y u v : M128}, x = turnCols j y → aesStepA x u rc = turnCols j (aesStepA y v rc) → colSum y = 0#32 := by
    intro rc x y u v hx hn
    refine turned_step hj hj4 (isStep_A y v rc) ?_
    rw [← hn, ← hx]
    exact isStep_A x u rc
  have sb : ∀ {x y u v : M128}, x = turnCols j y → aesStepB u x = turnCols j (aesStepB v y) → colSum y = 0#32 := by
    intro x y u v hx hn
    refine turned_step hj hj4 (isStep_B v y) ?_
    rw [← hn, ← hx]
    exact isStep_B u x
  have za := four_steps (isStep_A _ _ _) (isStep_A _ _ _) (isStep_A _ _ _) (sa a0 a1) (sa a1 a2) (sa a2 a3) (sa a3 a4)
  have za' := four_steps (isStep_A _ _ _) (isStep_A _ _ _) (isStep_A _ _ _) (sa a1 a2) (sa a2 a3) (sa a3 a4) (sa a4 a5)
  have zb := four_steps (isStep_B _ _) (isStep_B _ _) (isStep_B _ _) (sb b0 b1) (sb b1 b2) (sb b2 b3) (sb b3 b4)
  rw [za, zb] at za'
  exact absurd za' (by decide +kernel)

/-- A key with its columns rotated: the first round keys agree up to the rotation, the schedules do not. -/
example : ∃ ks ks', aesSchedule128 [] (storeu 0x00112233445566778899aabbccddeeff#128) = .ok ks ∧
    aesSchedule128 [] (storeu (turnCols 1 0x00112233445566778899aabbccddeeff#128)) = .ok ks' ∧ ks' ≠ ks.map (turnCols 1) :=
  ⟨_, _, sched128 _ _ (storeu_length _), sched128 _ _ (storeu_length _), C157_schedule128 [] [] _ _ (storeu_length _) (storeu_length _) 1 (by decide) (by decide) _ _
    (sched128 _ _ (storeu_length _)) (sched128 _ _ (storeu_length _))⟩

example : ∃ ks ks', aesSchedule256 (storeu 1#128 ++ storeu 2#128) = .ok ks ∧ aesSchedule256 (storeu (turnCols 2 1#128) ++ storeu (turnCols 2 2#128)) = .ok ks' ∧
    ks' ≠ ks.map (turnCols 2) := by
  have l (a b : M128) : (storeu a ++ storeu b).length = 32 := by rw [List.length_append, storeu_length, storeu_length]
  exact ⟨_, _, sched256 _ (l _ _), sched256 _ (l _ _), C157_schedule256 _ _ (l _ _) (l _ _) 2 (by decide) (by decide) _ _ (sched256 _ (l _ _)) (sched256 _ (l _ _))⟩

end Verif.Props
