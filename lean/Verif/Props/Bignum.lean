import Verif.Proof.BignumOps

/-! Properties C17 - C23: include/caligo/bignum.h. An object of `bignum<bits>` is a list of `wordCount bits` words. -/

namespace Verif.Props
open Verif.Model Verif.Proof Verif.Spec

theorem bnN_eq (bits : Nat) : bnN bits = wordCount bits := rfl

/-! ### C17 -/

/-- C17, `operator+`: carry and sum are exact. -/
theorem C17_add (a b : List U32) (hl : a.length = b.length) :
    (bnAdd a b).2.length = a.length ∧ value (bnAdd a b).2 = (value a + value b) % 2 ^ (32 * a.length) ∧
    ((bnAdd a b).1 = true ↔ 2 ^ (32 * a.length) ≤ value a + value b) := by
  have h := bnAdd_spec a b hl
  have h1 := value_lt (bnAdd a b).2
  have hlen := bnAdd_length a b hl
  rw [hlen] at h1
  refine ⟨hlen, ?_, ?_⟩
  · rw [← h, Nat.add_mul_mod_self_left, Nat.mod_eq_of_lt h1]
  · cases hc : (bnAdd a b).1 <;> rw [hc] at h <;> simp at h ⊢ <;> omega

/-- A case that meets the hypotheses of `C17_add`. -/
example := C17_add [0xffffffff#32, 1#32] [1#32, 0xffffffff#32] rfl

/-- C17, `operator-`: borrow and difference are exact. -/
theorem C17_sub (a b : List U32) (hl : a.length = b.length) :
    (bnSub a b).2.length = a.length ∧ value (bnSub a b).2 = (value a + 2 ^ (32 * a.length) - value b) % 2 ^ (32 * a.length) ∧
    ((bnSub a b).1 = true ↔ value a < value b) := by
  have h := bnSub_spec a b hl
  have h1 := value_lt (bnSub a b).2
  have h2 := value_lt a
  have h3 := value_lt b
  have hlen := bnSub_length a b hl
  rw [hlen] at h1
  rw [← hl] at h3
  have hb := bnSub_borrow a b hl
  refine ⟨hlen, ?_, hb⟩
  cases hc : (bnSub a b).1 <;> rw [hc] at h hb <;> simp only [Bool.false_eq_true, false_iff, true_iff, if_true, if_false, Nat.mul_zero, Nat.add_zero, Nat.mul_one] at h hb
  · rw [show value a + 2 ^ (32 * a.length) - value b = value (bnSub a b).2 + 2 ^ (32 * a.length) by omega, Nat.add_mod_right, Nat.mod_eq_of_lt h1]
  · rw [show value a + 2 ^ (32 * a.length) - value b = value (bnSub a b).2 by omega, Nat.mod_eq_of_lt h1]

example : ([0xffffffff#32, 0xffffffff#32] : List U32).length = [1#32, 0#32].length := rfl
example : bnAdd [0xffffffff#32, 0xffffffff#32] [1#32, 0#32] = (true, [0#32, 0#32]) := by decide +kernel
example : bnSub [0#32, 1#32] [1#32, 0#32] = (false, [0xffffffff#32, 0#32]) := by decide +kernel

/-! ### C18 -/

/-- C18, `operator*` and `square` : exact product for every width that is a whole number of words; in particular no out-of-bounds access. -/
theorem C18_mul (bits : Nat) (h32 : bits % 32 = 0) (a b : List U32) (ha : a.length = wordCount bits) (hb : b.length = wordCount bits) :
    ∃ x, bnMul bits a b = .ok x ∧ x.length = wordCount (2 * bits) ∧ value x = value a * value b :=
  bnMul_spec bits a b ha hb (by unfold bnN; omega)

/-- A case that meets the hypotheses of `C18_mul`. -/
example := C18_mul 64 rfl [0xffffffff#32, 1#32] [1#32, 0xffffffff#32] rfl rfl

theorem C18_square (bits : Nat) (h32 : bits % 32 = 0) (a : List U32) (ha : a.length = wordCount bits) :
    ∃ x, bnSquare bits a = .ok x ∧ x.length = wordCount (2 * bits) ∧ value x = value a ^ 2 := by
  obtain ⟨x, h1, h2, h3⟩ := C18_mul bits h32 a a ha ha
  exact ⟨x, h1, h2, by rw [h3, sq]⟩

/-- A case that meets the hypotheses of `C18_square`. -/
example := C18_square 64 rfl [0xffffffff#32, 1#32] rfl

/-- C18, `operator*(uint32_t)`: exact at every width. -/
theorem C18_mulWord (bits : Nat) (a : List U32) (ha : a.length = wordCount bits) (b : U32) :
    (bnMulWord a b).length = wordCount (bits + 32) ∧ value (bnMulWord a b) = value a * b.toNat := by
  obtain ⟨h1, h2⟩ := mulWordLoop_spec 0#64 b a (by decide)
  refine ⟨?_, by rw [bnMulWord, h2]; simp⟩
  rw [bnMulWord, h1, ha]; unfold wordCount; omega

/-- A case that meets the hypotheses of `C18_mulWord`. -/
example := C18_mulWord 64 [0xffffffff#32, 1#32] rfl 7#32

/-- C18, the exact set of widths: the result array is large enough unless `bits mod 32` is between 1 and 16, and then every multiplication
writes outside the result. -/
theorem C18_mul_width (bits : Nat) (a b : List U32) (ha : a.length = wordCount bits) (hb : b.length = wordCount bits) :
    (bits % 32 = 0 ∨ 16 < bits % 32 → ∃ x, bnMul bits a b = .ok x ∧ value x = value a * value b) ∧
    (1 ≤ bits % 32 ∧ bits % 32 ≤ 16 → bnMul bits a b = .error .ub) := by
  constructor
  · intro h
    obtain ⟨x, h1, _, h3⟩ := bnMul_spec bits a b ha hb (by unfold bnN; omega)
    exact ⟨x, h1, h3⟩
  · intro h
    exact bnMul_ub bits a b ha hb (by unfold bnN; omega)

example : bnMul 64 [0xffffffff#32, 0xffffffff#32] [0xffffffff#32, 0xffffffff#32] = .ok [1#32, 0#32, 0xfffffffe#32, 0xffffffff#32] := by
  decide +kernel
example : bnMul 40 [1#32, 0#32] [1#32, 0#32] = .error .ub := by decide +kernel

/-! ### C19 -/

/-- C19: `==` and `<` compare the numbers. -/
theorem C19_compare (a b : List U32) (hl : a.length = b.length) :
    (bnEq a b = true ↔ value a = value b) ∧ (bnLt a b = true ↔ value a < value b) := by
  refine ⟨?_, bnSub_borrow a b hl⟩
  rw [bnEq_iff a b hl]
  exact ⟨fun h => by rw [h], value_inj hl⟩

example : bnLt [0xffffffff#32, 1#32] [0#32, 2#32] = true := by decide +kernel

/-! ### C20 -/

/-- C20: the byte constructor reads a little-endian number; bytes beyond the width are dropped. -/
theorem C20_of_bytes (bits : Nat) (data : List Byte) :
    (bnOfBytes bits data).length = wordCount bits ∧
    value (bnOfBytes bits data) = leNat data % 2 ^ (32 * wordCount bits) := by
  obtain ⟨h1, h2⟩ := bnOfBytes_spec bits data
  refine ⟨h1, ?_⟩
  rw [h2]
  have h := leNat_append (data.take (4 * bnN bits)) (data.drop (4 * bnN bits))
  rw [List.take_append_drop] at h
  have hlt := leNat_lt (data.take (4 * bnN bits))
  rw [List.length_take] at h hlt
  rcases Nat.le_total (4 * bnN bits) data.length with hc | hc
  · rw [Nat.min_eq_left hc, show 8 * (4 * bnN bits) = 32 * bnN bits by ring] at h hlt
    rw [h, ← bnN_eq, Nat.add_mul_mod_self_left, Nat.mod_eq_of_lt hlt]
  · rw [List.take_of_length_le hc]
    rw [List.take_of_length_le hc, Nat.min_eq_right hc] at hlt
    rw [Nat.mod_eq_of_lt (lt_of_lt_of_le hlt (Nat.pow_le_pow_right (by decide) (by rw [← bnN_eq]; omega)))]

/-- C20: `as_bytes` writes all the words little-endian. -/
theorem C20_as_bytes (v : List U32) : (bnAsBytes v).length = 4 * v.length ∧ leNat (bnAsBytes v) = value v := bnAsBytes_spec v

/-- C20: bytes and back. -/
theorem C20_roundtrip (bits : Nat) (v : List U32) (hv : v.length = wordCount bits) : bnOfBytes bits (bnAsBytes v) = v := by
  obtain ⟨h1, h2⟩ := C20_of_bytes bits (bnAsBytes v)
  apply value_inj (by omega)
  rw [h2, (C20_as_bytes v).2, ← hv, Nat.mod_eq_of_lt (value_lt v)]

/-- A case that meets the hypotheses of `C20_roundtrip`. -/
example := C20_roundtrip 64 [0xffffffff#32, 1#32] rfl

/-- C20: from bytes and back gives the bytes padded with zeros or cut to the size of the number. -/
theorem C20_bytes_roundtrip (bits : Nat) (data : List Byte) :
    bnAsBytes (bnOfBytes bits data) =
      data.take (4 * wordCount bits) ++ List.replicate (4 * wordCount bits - data.length) 0#8 := by
  obtain ⟨h1, h2⟩ := bnOfBytes_spec bits data
  apply leNat_inj
  · rw [(C20_as_bytes _).1, h1, List.length_append, List.length_take, List.length_replicate, bnN_eq]; omega
  · rw [(C20_as_bytes _).2, h2, leNat_append, leNat_replicate_zero, Nat.mul_zero, Nat.add_zero, bnN_eq]

/-- C20, word constructors: both read the most significant word first. A list longer than the array is undefined behaviour, and so is a
span shorter than the array. -/
theorem C20_words (bits : Nat) (list : List U32) :
    (list.length ≤ wordCount bits → ∃ v, bnOfInit bits list = .ok v ∧ v.length = wordCount bits ∧ value v = value list.reverse) ∧
    (wordCount bits < list.length → bnOfInit bits list = .error .ub) ∧
    (wordCount bits ≤ list.length → ∃ v, bnOfSpan32 bits list = .ok v ∧ v.length = wordCount bits ∧
      value v = value (list.take (wordCount bits)).reverse) := by
  refine ⟨fun h => ⟨_, bnOfInit_spec bits list h, ?_, ?_⟩, fun h => bnOfInit_ub bits list h, fun h => ⟨_, bnOfSpan32_spec bits list h, ?_, rfl⟩⟩
  · simp [bnN_eq]; omega
  · rw [value_append, value_replicate_zero, Nat.mul_zero, Nat.add_zero]
  · simp [bnN_eq]; omega

example : bnOfBytes 64 [1#8, 2#8, 3#8, 4#8, 5#8] = [0x04030201#32, 5#32] := by decide +kernel
example : bnOfInit 96 [1#32, 2#32] = .ok [2#32, 1#32, 0#32] := by decide +kernel
example : (2 : Nat) ≤ wordCount 96 ∧ wordCount 32 < 2 ∧ wordCount 64 ≤ 2 := by decide

/-! ### C21 -/

/-- C21: `shr1` halves. -/
theorem C21_shr1 (v : List U32) : (bnShr1 v).length = v.length ∧ value (bnShr1 v) = value v / 2 := ⟨bnShr1_length v, bnShr1_value v⟩

/-- C21: `shl_word(k)` multiplies by `2^(32 k)` modulo the width. -/
theorem C21_shlWord (v : List U32) (k : Nat) (hk : k ≤ v.length) :
    ∃ r, bnShlWord v k = .ok r ∧ r.length = v.length ∧ value r = value v * 2 ^ (32 * k) % 2 ^ (32 * v.length) := by
  refine ⟨_, bnShlWord_eq v k hk, by simp; omega, ?_⟩
  rw [value_append, value_replicate_zero, Nat.zero_add, List.length_replicate, value_take _ _ (by omega), Nat.mul_comm,
    show 32 * v.length = 32 * (v.length - k) + 32 * k by omega, pow_add, Nat.mul_mod_mul_right]

/-- A case that meets the hypotheses of `C21_shlWord`. -/
example := C21_shlWord [0xffffffff#32, 1#32] 1 (by decide)

/-- C21: `slice<K>(start)` for a start at a word boundary and a whole number of words: `floor(a / 2^start) mod 2^K`; outside the array it is
undefined behaviour. -/
theorem C21_slice (k start : Nat) (v : List U32) (hk : k % 32 = 0) (hs : start % 32 = 0) :
    (start + k ≤ 32 * v.length → ∃ r, bnSlice k v start = .ok r ∧ r.length = wordCount k ∧ value r = value v / 2 ^ start % 2 ^ k) ∧
    (32 * v.length < start + k → 0 < k → bnSlice k v start = .error .ub) := by
  have e : bnN k = k / 32 := by unfold bnN; omega
  constructor
  · intro h
    obtain ⟨r, h1, h2, h3⟩ := bnSlice_value k v start (by rw [e]; omega)
    refine ⟨r, h1, h2, ?_⟩
    rw [h3, e, show 32 * (start / 32) = start by omega, show 32 * (k / 32) = k by omega]
  · intro h h0
    exact bnSlice_ub k v start (by rw [e]; omega) h0

/-- A case that meets the hypotheses of `C21_slice`. -/
example := (C21_slice 32 32 [0xffffffff#32, 1#32] rfl rfl).1 (by decide)
example := (C21_slice 64 32 [0xffffffff#32, 1#32] rfl rfl).2 (by decide) (by decide)

/-- C21: `bit`, `set_bit`, `clear_bit` read and write the binary digit; outside the array they are undefined behaviour. -/
theorem C21_bits (v : List U32) (n : Nat) :
    (n < 32 * v.length → bnBit v n = .ok (if (value v).testBit n then 1#32 else 0#32) ∧
      (∃ r, bnSetBit v n = .ok r ∧ r.length = v.length ∧ ∀ m, (value r).testBit m = (decide (m = n) || (value v).testBit m)) ∧
      (∃ r, bnClearBit v n = .ok r ∧ r.length = v.length ∧ ∀ m, (value r).testBit m = (!decide (m = n) && (value v).testBit m))) ∧
    (32 * v.length ≤ n → bnBit v n = .error .ub ∧ bnSetBit v n = .error .ub ∧ bnClearBit v n = .error .ub) := by
  constructor
  · intro h
    obtain ⟨r, h1, h2, h3⟩ := bnSetBit_spec v n h
    obtain ⟨r', h1', h2', h3'⟩ := bnClearBit_spec v n h
    refine ⟨bnBit_spec v n h, ⟨r, h1, h2, fun m => ?_⟩, ⟨r', h1', h2', fun m => ?_⟩⟩
    · rw [h3, Nat.testBit_or, Nat.testBit_two_pow, Bool.or_comm]
      congr 1
      exact decide_eq_decide.mpr eq_comm
    · rw [h3', Bool.and_comm]; simp
  · intro h
    have : v.length ≤ n / 32 := by omega
    refine ⟨?_, ?_, ?_⟩
    · rw [bnBit, rd_ub this]; rfl
    · rw [bnSetBit, rd_ub this]; rfl
    · rw [bnClearBit, rd_ub this]; rfl

/-- A case that meets the hypotheses of `C21_bits`. -/
example := (C21_bits [0xffffffff#32, 1#32] 33).1 (by decide)
example := (C21_bits [0xffffffff#32, 1#32] 64).2 (by decide)

/-- C21: `neg` is the complement `2^W - 1 - a`. -/
theorem C21_neg (v : List U32) : (bnNeg v).length = v.length ∧ value (bnNeg v) = 2 ^ (32 * v.length) - 1 - value v := by
  obtain ⟨h1, h2⟩ := bnNeg_value v
  exact ⟨h1, by omega⟩

/-- C21: `^`, `&` are bitwise on the numbers. -/
theorem C21_bitwise (a b : List U32) (hl : a.length = b.length) :
    value (bnXor a b) = value a ^^^ value b ∧ value (bnAnd a b) = value a &&& value b := ⟨bnXor_value a b hl, bnAnd_value a b hl⟩

/-- A case that meets the hypotheses of `C21_bitwise`. -/
example := C21_bitwise [0xffffffff#32, 1#32] [1#32, 3#32] rfl

/-- C21: `ctime_swap` swaps exactly when asked. -/
theorem C21_ctimeSwap (s : Bool) (a b : List U32) (hl : a.length = b.length) : bnCtimeSwap s a b = if s then (b, a) else (a, b) :=
  bnCtimeSwap_eq s a b hl

/-- A case that meets the hypotheses of `C21_ctimeSwap`. -/
example := C21_ctimeSwap true [0xffffffff#32, 1#32] [1#32, 3#32] rfl

/-- C21: the constructor from a `uint32_t` -/
theorem C21_ofU32 (bits : Nat) (hb : 0 < bits) (x : U32) : (bnOfU32 bits x).length = wordCount bits ∧ value (bnOfU32 bits x) = x.toNat :=
  bnOfU32_spec bits hb x

example : bnShr1 [0#32, 1#32] = [0x80000000#32, 0#32] := by decide +kernel
example : bnShlWord [1#32, 2#32] 1 = .ok [0#32, 1#32] := by decide +kernel
example : bnSlice 32 [1#32, 2#32] 32 = .ok [2#32] := by decide +kernel
example : bnSetBit [0#32, 0#32] 63 = .ok [0#32, 0x80000000#32] := by decide +kernel
example : bnCtimeSwap true [1#32] [2#32] = ([2#32], [1#32]) := by decide +kernel
example : (32 : Nat) % 32 = 0 ∧ 32 + 32 ≤ 32 * [1#32, 2#32].length := by decide

/-! ### C22 -/

/-- C22 in full: conversion to `bignum<bits>` preserves every number below `2^bits`. -/
def C22_claim : Prop := ∀ (bits k : Nat) (v : List U32), 0 < bits → 0 < k → v.length = wordCount k → value v < 2 ^ k → value v < 2 ^ bits →
  value (bnConvert bits k v) = value v

/-- C22 fails: from a 40-bit number the top 8 bits are lost. -/
theorem C22_false : ¬ C22_claim := by
  intro h
  exact absurd (h 64 40 [0#32, 1#32] (by decide) (by decide) (by decide) (by decide +kernel) (by decide +kernel)) (by decide +kernel)

/-- C22 holds for widths that are whole numbers of words. Missing: the other widths, where it is false. -/
theorem C22_partial (bits k : Nat) (v : List U32) (hk : k % 32 = 0) (hb : bits % 32 = 0) (hv : v.length = wordCount k)
    (hfit : value v < 2 ^ bits) : (bnConvert bits k v).length = wordCount bits ∧ value (bnConvert bits k v) = value v := by
  refine ⟨bnConvert_length bits k v, ?_⟩
  rw [bnConvert_value bits k v hv]
  apply Nat.mod_eq_of_lt
  have hlt := value_lt v
  rw [hv] at hlt
  rcases Nat.le_total k bits with h | h
  · rw [Nat.min_eq_left h]
    exact lt_of_lt_of_le hlt (Nat.pow_le_pow_right (by decide) (by unfold wordCount; omega))
  · rw [Nat.min_eq_right h, show 32 * (bits / 32) = bits by omega]; exact hfit

/-- A case that meets the hypotheses of `C22_partial`. -/
example := C22_partial 32 64 [7#32, 0#32] rfl rfl rfl (by decide)

/-- C22, what happens at every pair of widths: only whole common words survive. -/
theorem C22_exact (bits k : Nat) (v : List U32) (hv : v.length = wordCount k) :
    value (bnConvert bits k v) = value v ↔ value v < 2 ^ (32 * (min k bits / 32)) := by
  rw [bnConvert_value bits k v hv]
  constructor
  · intro h; rw [← h]; exact Nat.mod_lt _ (by positivity)
  · exact Nat.mod_eq_of_lt

example : value (bnConvert 32 64 [7#32, 0#32]) = 7 := by decide +kernel

/-! ### C23 -/

/-- C23 in full, for whole numbers of words. -/
def C23_claim : Prop := ∀ (bits k : Nat) (v p : List U32), bits % 32 = 0 → k % 32 = 0 → 0 < k → k ≤ bits → v.length = wordCount bits →
  p.length = wordCount k → value p ≠ 0 → ∃ r, bnNaiveReduce bits k v p = .ok r ∧ value r = value v % value p

/-- C23 fails: 100 mod 3 at 32 bits gives 97. -/
theorem C23_false : ¬ C23_claim := by
  intro h
  obtain ⟨r, hr, hv⟩ := h 32 32 [100#32] [3#32] (by decide) (by decide) (by decide) (by decide) (by decide) (by decide) (by decide)
  have e : bnNaiveReduce 32 32 [100#32] [3#32] = .ok [97#32] := by decide +kernel
  rw [e] at hr
  have := (Except.ok.inj hr).symm
  subst this
  exact absurd hv (by decide +kernel)

/-- C23 holds when the dividend is less than twice the divisor shifted up to the top word. Here `sh` is the number of leading zero words
of the divisor in the dividend's width. Missing: dividends beyond that bound, where the result is too large (`C23_otherwise`). -/
theorem C23_partial (bits k : Nat) (v p : List U32) (hk : k % 32 = 0) (hle : k ≤ bits) (hv : v.length = wordCount bits) (hp : p.length = wordCount k)
    (h0 : value p ≠ 0) (sh : Nat) (hsh : 2 ^ (32 * (wordCount bits - 1)) ≤ value p * 2 ^ (32 * sh))
    (hsh2 : value p * 2 ^ (32 * sh) < 2 ^ (32 * wordCount bits)) (hc : value v < 2 * (value p * 2 ^ (32 * sh))) :
    ∃ r, bnNaiveReduce bits k v p = .ok r ∧ r.length = wordCount k ∧ value r = value v % value p := by
  have hplt := value_lt p
  rw [hp] at hplt
  have hfit : value p < 2 ^ (32 * (min k bits / 32)) := by
    rw [Nat.min_eq_left hle]
    exact lt_of_lt_of_le hplt (Nat.pow_le_pow_right (by decide) (by unfold wordCount; omega))
  obtain ⟨r, h1, h2, h3⟩ := bnNaiveReduce_spec bits k v p hv hp h0 hfit sh hsh hsh2
  refine ⟨r, h1, h2, ?_⟩
  rw [h3, if_pos hc]
  exact Nat.mod_eq_of_lt (lt_trans (Nat.mod_lt _ (by omega)) hfit)

/-- A case that meets the hypotheses of `C23_partial`. -/
example := C23_partial 64 32 [5#32, 0xffffffff#32] [0x80000000#32] rfl (by decide) rfl rfl (by decide) 1 (by decide) (by decide) (by decide)

/-- C23, corollary: the remainder is right for every dividend when the divisor's bit length is a multiple of 32. -/
theorem C23_full_words_partial (bits k : Nat) (v p : List U32) (hk : k % 32 = 0) (hle : k ≤ bits) (hv : v.length = wordCount bits)
    (hp : p.length = wordCount k) (j : Nat) (hj : 0 < j) (htop : 2 ^ (32 * j - 1) ≤ value p) (hlt : value p < 2 ^ (32 * j)) :
    ∃ r, bnNaiveReduce bits k v p = .ok r ∧ r.length = wordCount k ∧ value r = value v % value p := by
  have hplt := value_lt p
  rw [hp] at hplt
  have hjN : j ≤ wordCount bits := by
    have h1 : 2 ^ (32 * j - 1) < 2 ^ (32 * wordCount k) := lt_of_le_of_lt htop hplt
    have h2 : 32 * j - 1 < 32 * wordCount k := (Nat.pow_lt_pow_iff_right (by decide)).mp h1
    unfold wordCount at *; omega
  have e1 : 2 ^ (32 * wordCount bits) = 2 ^ (32 * j) * 2 ^ (32 * (wordCount bits - j)) := by rw [← pow_add]; congr 1; omega
  have e2 : 2 ^ (32 * wordCount bits) = 2 * (2 ^ (32 * j - 1) * 2 ^ (32 * (wordCount bits - j))) := by
    rw [← pow_add, ← pow_succ']; congr 1; omega
  have hv' := value_lt v
  rw [hv] at hv'
  have h3 : 2 ^ (32 * j - 1) * 2 ^ (32 * (wordCount bits - j)) ≤ value p * 2 ^ (32 * (wordCount bits - j)) := Nat.mul_le_mul_right _ htop
  refine C23_partial bits k v p hk hle hv hp (by have := Nat.two_pow_pos (32 * j - 1); omega) (wordCount bits - j) ?_ ?_ ?_
  · refine le_trans ?_ h3
    rw [← pow_add]
    exact Nat.pow_le_pow_right (by decide) (by omega)
  · rw [e1]; exact Nat.mul_lt_mul_of_pos_right hlt (by positivity)
  · omega

/-- A case that meets the hypotheses of `C23_full_words_partial`. -/
example := C23_full_words_partial 64 32 [5#32, 9#32] [0x80000001#32] rfl (by decide) rfl rfl 1 (by decide) (by decide) (by decide)

/-- C23, otherwise: every subtraction succeeds and a multiple of the divisor remains. -/
theorem C23_otherwise (bits : Nat) (v p : List U32) (h32 : bits % 32 = 0) (hv : v.length = wordCount bits) (hp : p.length = wordCount bits)
    (h0 : value p ≠ 0) (sh : Nat) (hsh : 2 ^ (32 * (wordCount bits - 1)) ≤ value p * 2 ^ (32 * sh))
    (hsh2 : value p * 2 ^ (32 * sh) < 2 ^ (32 * wordCount bits)) (hc : 2 * (value p * 2 ^ (32 * sh)) ≤ value v) :
    ∃ r, bnNaiveReduce bits bits v p = .ok r ∧ value p ≤ value r ∧ value r % value p = value v % value p := by
  have hplt := value_lt p
  rw [hp] at hplt
  have e32 : 32 * (min bits bits / 32) = 32 * wordCount bits := by unfold wordCount; omega
  obtain ⟨r, h1, h2, h3⟩ := bnNaiveReduce_spec bits bits v p hv hp h0 (by rw [e32]; exact hplt) sh hsh hsh2
  have hv' := value_lt v
  rw [hv] at hv'
  rw [if_neg (by omega), e32, Nat.mod_eq_of_lt (by omega)] at h3
  have h4 : value p * (2 ^ (32 * sh + 1) - 1) + value p = 2 * (value p * 2 ^ (32 * sh)) := by
    have := Nat.two_pow_pos (32 * sh + 1)
    rw [Nat.mul_sub, Nat.mul_one, Nat.sub_add_cancel (Nat.le_mul_of_pos_right _ this), pow_succ]; ring
  refine ⟨r, h1, by omega, ?_⟩
  rw [h3]
  conv_rhs => rw [← Nat.sub_add_cancel (show value p * (2 ^ (32 * sh + 1) - 1) ≤ value v by omega)]
  rw [Nat.add_mul_mod_self_left]

/-- A case that meets the hypotheses of `C23_otherwise`. -/
example := C23_otherwise 64 [5#32, 9#32] [3#32, 0#32] rfl rfl rfl (by decide) 1 (by decide) (by decide) (by decide)

/-- C23, zero divisor: the normalisation loop never ends. -/
theorem C23_zero_diverges (bits k : Nat) (v p : List U32) (hb : 0 < bits) (hp : p.length = wordCount k) (h0 : value p = 0) :
    bnNaiveReduce bits k v p = .error .diverges := bnNaiveReduce_zero bits k v p hb hp (by rw [h0, Nat.zero_mod])

example : bnNaiveReduce 64 32 [5#32, 1#32] [0x80000001#32] = .ok [3#32] := by decide +kernel
example : 2 ^ (32 * (wordCount 64 - 1)) ≤ value [0x80000001#32] * 2 ^ (32 * 1) ∧ value [5#32, 1#32] < 2 * (value [0x80000001#32] * 2 ^ (32 * 1)) := by
  decide +kernel

end Verif.Props
