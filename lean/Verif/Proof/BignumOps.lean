import Verif.Proof.Bignum
import Mathlib.Data.Nat.Bitwise

/-! Shifts, bits, conversions and reduction of the word lists. -/

namespace Verif.Proof
open Verif.Model Verif.Spec

theorem foldl_range_inv {σ : Type} {n : Nat} {s : σ} {f : σ → Nat → σ} (P : Nat → σ → Prop) (h0 : P 0 s)
    (hs : ∀ i, i < n → ∀ s, P i s → P (i + 1) (f s i)) : P n ((List.range n).foldl f s) := by
  induction n with
  | zero => simpa using h0
  | succ n ih =>
    rw [List.range_succ, List.foldl_append]
    exact hs n (by omega) _ (ih (fun i hi => hs i (by omega)))

theorem getD_set_eq {α : Type} (v : List α) (i j : Nat) (x d : α) (hi : i < v.length) :
    (v.set i x).getD j d = if i = j then x else v.getD j d := by
  rw [List.getD_eq_getElem?_getD, List.getD_eq_getElem?_getD, List.getElem?_set]
  split
  · next h => subst h; simp [hi]
  · rfl

theorem getD_replicate0 (n i : Nat) : (List.replicate n 0#32).getD i 0#32 = 0#32 := by
  by_cases h : i < n
  · rw [List.getD_eq_getElem _ _ (by simpa using h), List.getElem_replicate]
  · rw [List.getD_eq_default _ _ (by simpa using h)]

theorem list_ext_getD {α : Type} {a b : List α} (d : α) (hl : a.length = b.length) (h : ∀ i, i < a.length → a.getD i d = b.getD i d) : a = b := by
  refine List.ext_getElem hl (fun i h1 h2 => ?_)
  have := h i h1
  rwa [List.getD_eq_getElem _ _ h1, List.getD_eq_getElem _ _ h2] at this

/-! ### bits -/

theorem testBit_value (v : List U32) (m : Nat) : (value v).testBit m = (v.getD (m / 32) 0#32).getLsbD (m % 32) := by
  by_cases h : m / 32 < v.length
  · rw [List.getD_eq_getElem _ _ h, BitVec.getLsbD, getElem_of_value v _ h, Nat.testBit_mod_two_pow, Nat.testBit_div_two_pow]
    have : m % 32 < 32 := Nat.mod_lt _ (by decide)
    simp only [this, decide_true, Bool.true_and]
    congr 1; omega
  · rw [List.getD_eq_default _ _ (by omega), BitVec.getLsbD_zero]
    apply Nat.testBit_lt_two_pow
    refine lt_of_lt_of_le (value_lt v) (Nat.pow_le_pow_right (by decide) (by omega))

theorem bnBit_spec (v : List U32) (n : Nat) (h : n < 32 * v.length) :
    bnBit v n = .ok (if (value v).testBit n then 1#32 else 0#32) := by
  have h1 : n / 32 < v.length := by omega
  rw [bnBit, rd_ok h1, loop_ok_bind, testBit_value, List.getD_eq_getElem _ _ h1]
  congr 1
  apply BitVec.eq_of_getLsbD_eq
  intro i hi
  rw [BitVec.getLsbD_and, BitVec.getLsbD_ushiftRight]
  by_cases h0 : i = 0
  · subst h0
    rw [Nat.add_zero]
    cases v[n / 32].getLsbD (n % 32) <;> simp
  · have e : BitVec.getLsbD 1#32 i = false := by simp [BitVec.getLsbD_one, h0]
    rw [e, Bool.and_false]
    split
    · exact e.symm
    · simp

theorem getLsbD_one_shl (k i : Nat) (hi : i < 32) (hk : k < 32) : (1#32 <<< k).getLsbD i = decide (i = k) := by
  rw [BitVec.getLsbD_shiftLeft, BitVec.getLsbD_one]
  simp only [hi, decide_true, Bool.true_and, show (0:Nat) < 32 by decide]
  by_cases h1 : i < k
  · simp [h1]; omega
  · simp [h1]; omega

theorem bnSetBit_spec (v : List U32) (n : Nat) (h : n < 32 * v.length) :
    ∃ v', bnSetBit v n = .ok v' ∧ v'.length = v.length ∧ value v' = value v ||| 2 ^ n := by
  have h1 : n / 32 < v.length := by omega
  refine ⟨v.set (n / 32) (v[n / 32] ||| (1#32 <<< (n % 32))), ?_, by simp, ?_⟩
  · rw [bnSetBit, rd_ok h1, loop_ok_bind, wr_ok _ h1]
  · apply Nat.eq_of_testBit_eq
    intro m
    rw [testBit_value, Nat.testBit_or, testBit_value, Nat.testBit_two_pow, getD_set_eq _ _ _ _ _ h1]
    split
    · next e =>
      rw [← e, List.getD_eq_getElem _ _ h1, BitVec.getLsbD_or, getLsbD_one_shl _ _ (Nat.mod_lt _ (by decide)) (Nat.mod_lt _ (by decide))]
      congr 1
      exact decide_eq_decide.mpr (by omega)
    · next e =>
      have : ¬ n = m := fun e' => e (by rw [e'])
      simp [this]

theorem bnClearBit_spec (v : List U32) (n : Nat) (h : n < 32 * v.length) :
    ∃ v', bnClearBit v n = .ok v' ∧ v'.length = v.length ∧ ∀ m, (value v').testBit m = ((value v).testBit m && decide (m ≠ n)) := by
  have h1 : n / 32 < v.length := by omega
  refine ⟨v.set (n / 32) ((v[n / 32].setWidth 64 &&& ~~~(1#64 <<< (n % 32))).setWidth 32), ?_, by simp, ?_⟩
  · rw [bnClearBit, rd_ok h1, loop_ok_bind, wr_ok _ h1]
  · intro m
    rw [testBit_value, testBit_value, getD_set_eq _ _ _ _ _ h1]
    split
    · next e =>
      have hm : m % 32 < 32 := Nat.mod_lt _ (by decide)
      rw [← e, List.getD_eq_getElem _ _ h1, BitVec.getLsbD_setWidth, BitVec.getLsbD_and, BitVec.getLsbD_setWidth, BitVec.getLsbD_not,
        BitVec.getLsbD_shiftLeft, BitVec.getLsbD_one]
      simp only [hm, decide_true, Bool.true_and, show m % 32 < 64 by omega, show (0:Nat) < 64 by decide]
      congr 1
      by_cases h2 : m % 32 < n % 32
      · have : m ≠ n := by intro e2; rw [e2] at h2; omega
        simp [h2, this]
      · by_cases h3 : m = n
        · subst h3; simp
        · have : ¬ (m % 32 - n % 32 = 0) := by omega
          simp [h2, h3, this]
    · next e =>
      have : m ≠ n := fun e' => e (by rw [e'])
      simp [this]

theorem value_eq_of_bits {v : List U32} {x : Nat} (h : ∀ m, (v.getD (m / 32) 0#32).getLsbD (m % 32) = x.testBit m) : value v = x :=
  Nat.eq_of_testBit_eq (fun m => by rw [testBit_value, h])

theorem getD_zipWith (f : U32 → U32 → U32) (hf : f 0#32 0#32 = 0#32) (a b : List U32) (hl : a.length = b.length) (i : Nat) :
    (List.zipWith f a b).getD i 0#32 = f (a.getD i 0#32) (b.getD i 0#32) := by
  by_cases h : i < a.length
  · rw [List.getD_eq_getElem _ _ (by simp; omega), List.getD_eq_getElem _ _ h, List.getD_eq_getElem _ _ (by omega), List.getElem_zipWith]
  · rw [List.getD_eq_default _ _ (by simp; omega), List.getD_eq_default _ _ (by omega), List.getD_eq_default _ _ (by omega), hf]

theorem bnXor_value (a b : List U32) (hl : a.length = b.length) : value (bnXor a b) = value a ^^^ value b := by
  apply value_eq_of_bits
  intro m
  rw [bnXor, getD_zipWith _ (by rfl) _ _ hl, BitVec.getLsbD_xor, Nat.testBit_xor, testBit_value, testBit_value]

theorem bnAnd_value (a b : List U32) (hl : a.length = b.length) : value (bnAnd a b) = value a &&& value b := by
  apply value_eq_of_bits
  intro m
  rw [bnAnd, getD_zipWith _ (by rfl) _ _ hl, BitVec.getLsbD_and, Nat.testBit_and, testBit_value, testBit_value]

theorem xor_ones (e : U32) : (e ^^^ 0xFFFFFFFF#32).toNat + e.toNat = 2 ^ 32 - 1 := by
  have h : e ^^^ 0xFFFFFFFF#32 = ~~~e := by rw [← BitVec.xor_allOnes]; rfl
  rw [h, BitVec.toNat_not]
  have := e.isLt
  omega

theorem bnNeg_value (v : List U32) : (bnNeg v).length = v.length ∧ value (bnNeg v) + value v = 2 ^ (32 * v.length) - 1 := by
  refine ⟨by simp [bnNeg], ?_⟩
  induction v with
  | nil => simp [bnNeg, value]
  | cons w ws ih =>
    have h := xor_ones w
    rw [bnNeg, List.map_cons, value, value, List.length_cons, show 32 * (ws.length + 1) = 32 + 32 * ws.length by ring, pow_add]
    rw [bnNeg] at ih
    have := Nat.two_pow_pos (32 * ws.length)
    omega

/-! ### construction -/

theorem bnOfU32_spec (bits : Nat) (hb : 0 < bits) (x : U32) : (bnOfU32 bits x).length = bnN bits ∧ value (bnOfU32 bits x) = x.toNat := by
  have h : 0 < bnN bits := by unfold bnN; omega
  refine ⟨by simp [bnOfU32], ?_⟩
  have := value_set (List.replicate (bnN bits) 0#32) 0 x (by simpa using h)
  rw [value_replicate_zero] at this
  simpa [bnOfU32] using this

theorem leNat_append (a b : List Byte) : leNat (a ++ b) = leNat a + 2 ^ (8 * a.length) * leNat b := by
  induction a with
  | nil => simp [leNat]
  | cons w ws ih =>
    rw [List.cons_append, leNat, leNat, ih, List.length_cons, show 8 * (ws.length + 1) = 8 + 8 * ws.length by ring, pow_add]
    ring

theorem leNat_lt (a : List Byte) : leNat a < 2 ^ (8 * a.length) := by
  induction a with
  | nil => simp [leNat]
  | cons w ws ih =>
    rw [leNat, List.length_cons, show 8 * (ws.length + 1) = 8 + 8 * ws.length by ring, pow_add]
    have := w.isLt
    nlinarith

theorem leNat_inj {a b : List Byte} (hl : a.length = b.length) (h : leNat a = leNat b) : a = b := by
  induction a generalizing b with
  | nil => exact (List.length_eq_zero_iff.mp hl.symm).symm
  | cons w ws ih =>
    match b, hl with
    | w' :: ws', hl =>
      simp only [leNat] at h
      have h1 := w.isLt
      have h2 := w'.isLt
      have e1 : w.toNat = w'.toNat := by omega
      have e2 : leNat ws = leNat ws' := by omega
      rw [BitVec.eq_of_toNat_eq e1, ih (by simpa using hl) e2]

theorem leNat_replicate_zero (n : Nat) : leNat (List.replicate n 0#8) = 0 := by
  induction n with
  | zero => rfl
  | succ n ih => rw [List.replicate_succ, leNat, ih]; rfl

theorem or_byte (x : U32) (d : Byte) (k : Nat) (hk : k < 4) (hx : x.toNat < 2 ^ (8 * k)) :
    (x ||| (d.setWidth 32 <<< (8 * k))).toNat = x.toNat + 2 ^ (8 * k) * d.toNat := by
  have hd := d.isLt
  have h1 : (d.setWidth 32 <<< (8 * k)).toNat = 2 ^ (8 * k) * d.toNat := by
    rw [BitVec.toNat_shiftLeft, BitVec.toNat_setWidth, Nat.mod_eq_of_lt (show d.toNat < 2 ^ 32 by omega), Nat.shiftLeft_eq, Nat.mul_comm]
    apply Nat.mod_eq_of_lt
    have h2 : 2 ^ (8 * k) ≤ 2 ^ 24 := Nat.pow_le_pow_right (by decide) (by omega)
    exact lt_of_le_of_lt (Nat.mul_le_mul h2 (show d.toNat ≤ 255 by omega)) (by norm_num)
  rw [BitVec.toNat_or, h1, Nat.or_comm, ← Nat.two_pow_add_eq_or_of_lt hx, Nat.add_comm]

theorem bnOfBytes_spec (bits : Nat) (data : List Byte) :
    (bnOfBytes bits data).length = bnN bits ∧ value (bnOfBytes bits data) = leNat (data.take (4 * bnN bits)) := by
  have key := foldl_range_inv (n := min data.length (bnN bits * 4)) (s := List.replicate (bnN bits) 0#32)
    (f := fun v n => v.set (n / 4) (v.getD (n / 4) 0#32 ||| ((data.getD n 0#8).setWidth 32 <<< ((8 * n) % 32))))
    (fun n v => v.length = bnN bits ∧ value v = leNat (data.take n)) (by simp [value_replicate_zero, leNat]) (by
      rintro n hn v ⟨hl, hv⟩
      have hn1 : n < data.length := by omega
      have hn4 : n / 4 < v.length := by omega
      refine ⟨by simpa using hl, ?_⟩
      have hlt : value v < 2 ^ (8 * n) := by
        rw [hv]
        have := leNat_lt (data.take n)
        rwa [List.length_take, Nat.min_eq_left (by omega)] at this
      have e8 : 8 * n = 32 * (n / 4) + 8 * (n % 4) := by omega
      have hsm : v[n / 4].toNat < 2 ^ (8 * (n % 4)) := by
        rw [getElem_of_value]
        refine lt_of_le_of_lt (Nat.mod_le _ _) ?_
        rw [Nat.div_lt_iff_lt_mul (by positivity), ← pow_add, Nat.add_comm, ← e8]
        exact hlt
      rw [List.getD_eq_getElem _ _ hn4, List.getD_eq_getElem _ _ hn1, show 8 * n % 32 = 8 * (n % 4) by omega]
      have hset := value_set v (n / 4) (v[n / 4] ||| (data[n].setWidth 32 <<< (8 * (n % 4)))) hn4
      rw [or_byte _ _ _ (Nat.mod_lt _ (by decide)) hsm] at hset
      rw [List.take_succ_eq_append_getElem hn1, leNat_append, List.length_take, Nat.min_eq_left (by omega), ← hv, e8, pow_add]
      simp only [leNat, Nat.mul_zero, Nat.add_zero]
      rw [mul_add, ← mul_assoc] at hset
      omega)
  refine ⟨key.1, key.2.trans ?_⟩
  congr 1
  rcases Nat.le_total data.length (bnN bits * 4) with h | h
  · rw [Nat.min_eq_left h, List.take_length, List.take_of_length_le (by omega)]
  · rw [Nat.min_eq_right h, Nat.mul_comm]

theorem bnAsBytes_spec (v : List U32) : (bnAsBytes v).length = 4 * v.length ∧ leNat (bnAsBytes v) = value v := by
  induction v with
  | nil => simp [bnAsBytes, leNat, value]
  | cons w ws ih =>
    have hw := w.isLt
    rw [bnAsBytes] at ih
    refine ⟨?_, ?_⟩
    · rw [bnAsBytes, List.flatMap_cons, List.length_append, ih.1]; simp; omega
    · rw [bnAsBytes, List.flatMap_cons, leNat_append, ih.2, value]
      simp only [leNat, BitVec.toNat_setWidth, BitVec.toNat_and, BitVec.toNat_ushiftRight, show BitVec.toNat 0xFF#32 = 2 ^ 8 - 1 by rfl,
        Nat.and_two_pow_sub_one_eq_mod, Nat.shiftRight_eq_div_pow, List.length_cons, List.length_nil]
      omega

theorem bnConvert_eq (bits k : Nat) (v : List U32) (hv : v.length = bnN k) :
    bnConvert bits k v = v.take (min k bits / 32) ++ List.replicate (bnN bits - min k bits / 32) 0#32 := by
  have h1 : min k bits / 32 ≤ bnN k := by unfold bnN; omega
  have h2 : min k bits / 32 ≤ bnN bits := by unfold bnN; omega
  apply list_ext_getD 0#32
  · simp [bnConvert, hv]; omega
  · intro i hi
    have hi' : i < bnN bits := by simpa [bnConvert] using hi
    rw [List.getD_eq_getElem _ _ hi]
    simp only [bnConvert, List.getElem_map, List.getElem_range]
    split
    · next h =>
      rw [List.getD_append _ _ _ _ (by simp; omega), List.getD_eq_getElem _ _ (by omega), List.getD_eq_getElem _ _ (by simp; omega),
        List.getElem_take]
    · next h =>
      rw [List.getD_append_right _ _ _ _ (by simp; omega)]
      by_cases h3 : i - (v.take (min k bits / 32)).length < bnN bits - min k bits / 32
      · rw [List.getD_eq_getElem _ _ (by simpa using h3), List.getElem_replicate]
      · rw [List.getD_eq_default _ _ (by simpa using h3)]

theorem bnConvert_length (bits k : Nat) (v : List U32) : (bnConvert bits k v).length = bnN bits := by simp [bnConvert]

theorem bnConvert_value (bits k : Nat) (v : List U32) (hv : v.length = bnN k) :
    value (bnConvert bits k v) = value v % 2 ^ (32 * (min k bits / 32)) := by
  rw [bnConvert_eq bits k v hv, value_append, value_replicate_zero, Nat.mul_zero, Nat.add_zero, value_take]
  rw [hv]; unfold bnN; omega

theorem bnOfInit_spec (bits : Nat) (list : List U32) (h : list.length ≤ bnN bits) :
    bnOfInit bits list = .ok (list.reverse ++ List.replicate (bnN bits - list.length) 0#32) := by
  obtain ⟨v, e, hl, hv⟩ := loop_inv (n := list.length) (s := List.replicate (bnN bits) 0#32) (body := fun v n => do
      let i ← rd list n
      wr v (list.length - n - 1) i)
    (fun n v => v.length = bnN bits ∧ ∀ i, v.getD i 0#32 = if list.length - n ≤ i ∧ i < list.length then list.getD (list.length - 1 - i) 0#32 else 0#32)
    (by
      refine ⟨by simp, fun i => ?_⟩
      rw [if_neg (by omega), getD_replicate0]) (by
      rintro n hn v ⟨hl, hv⟩
      rw [rd_ok hn, loop_ok_bind, wr_ok _ (by omega)]
      refine ⟨_, rfl, by simpa using hl, fun i => ?_⟩
      rw [getD_set_eq _ _ _ _ _ (by omega), hv]
      by_cases h1 : list.length - n - 1 = i
      · rw [if_pos h1, if_pos (by omega), List.getD_eq_getElem _ _ (by omega)]
        congr 1; omega
      · rw [if_neg h1]
        by_cases h2 : list.length - n ≤ i ∧ i < list.length
        · rw [if_pos h2, if_pos (by omega)]
        · rw [if_neg h2, if_neg (by omega)])
  rw [bnOfInit, e]
  congr 1
  apply list_ext_getD 0#32
  · simp [hl]; omega
  · intro i hi
    rw [hv]
    by_cases h2 : i < list.length
    · rw [if_pos (by omega), List.getD_append _ _ _ _ (by simpa using h2), List.getD_eq_getElem _ _ (by omega),
        List.getD_eq_getElem _ _ (by simpa using h2), List.getElem_reverse]
    · rw [if_neg (by omega), List.getD_append_right _ _ _ _ (by simp; omega), getD_replicate0]

/-- too long an initialiser list writes outside the array -/
theorem bnOfInit_ub (bits : Nat) (list : List U32) (h : bnN bits < list.length) : bnOfInit bits list = .error .ub := by
  apply loop_error (m := 1) _ (by omega)
  rw [loop, loop]
  show (rd list 0 >>= fun i => wr _ (list.length - 0 - 1) i) = _
  rw [rd_ok (by omega), loop_ok_bind, wr_ub _ (by simp; omega)]

theorem bnOfSpan32_spec (bits : Nat) (data : List U32) (h : bnN bits ≤ data.length) :
    bnOfSpan32 bits data = .ok (data.take (bnN bits)).reverse := by
  obtain ⟨v, e, hl, hv⟩ := loop_inv (n := bnN bits) (s := List.replicate (bnN bits) 0#32) (body := fun v i => do
      let w ← rd data i
      wr v (bnN bits - i - 1) w)
    (fun n v => v.length = bnN bits ∧ ∀ i, i < bnN bits → bnN bits - n ≤ i → v.getD i 0#32 = data.getD (bnN bits - 1 - i) 0#32)
    ⟨by simp, fun i _ _ => by omega⟩ (by
      rintro n hn v ⟨hl, hv⟩
      rw [rd_ok (by omega), loop_ok_bind, wr_ok _ (by omega)]
      refine ⟨_, rfl, by simpa using hl, fun i hi1 hi2 => ?_⟩
      rw [getD_set_eq _ _ _ _ _ (by omega)]
      by_cases h1 : bnN bits - n - 1 = i
      · rw [if_pos h1, List.getD_eq_getElem _ _ (by omega)]
        congr 1; omega
      · rw [if_neg h1, hv i hi1 (by omega)])
  rw [bnOfSpan32, e]
  congr 1
  apply list_ext_getD 0#32
  · simp [hl]; omega
  · intro i hi
    rw [hv i (by omega) (by omega), List.getD_eq_getElem _ _ (by omega), List.getD_eq_getElem _ _ (by simp; omega), List.getElem_reverse,
      List.getElem_take]
    congr 1; simp; omega

/-! ### shifts -/

theorem bnShlWord_eq (v : List U32) (words : Nat) (h : words ≤ v.length) :
    bnShlWord v words = .ok (List.replicate words 0#32 ++ v.take (v.length - words)) := by
  have h1 := foldl_range_inv (n := v.length - words) (s := v)
    (f := fun v' n => v'.set (v.length - n - 1) (v'.getD (v.length - n - words - 1) 0#32))
    (fun n v' => v'.length = v.length ∧ ∀ i, i < v.length → v'.getD i 0#32 = if v.length - n ≤ i then v.getD (i - words) 0#32 else v.getD i 0#32)
    (by
      refine ⟨rfl, fun i hi => ?_⟩
      rw [if_neg (by omega)]) (by
      rintro n hn v' ⟨hl, hv⟩
      refine ⟨by simpa using hl, fun i hi => ?_⟩
      rw [getD_set_eq _ _ _ _ _ (by omega)]
      by_cases h1 : v.length - n - 1 = i
      · rw [if_pos h1, if_pos (by omega), hv _ (by omega), if_neg (by omega)]
        congr 1; omega
      · rw [if_neg h1, hv i hi]
        by_cases h2 : v.length - n ≤ i
        · rw [if_pos h2, if_pos (by omega)]
        · rw [if_neg h2, if_neg (by omega)])
  set v1 := (List.range (v.length - words)).foldl (fun v' n => v'.set (v.length - n - 1) (v'.getD (v.length - n - words - 1) 0#32)) v with hv1
  have h2 := foldl_range_inv (n := words) (s := v1) (f := fun v' n => v'.set (v.length - (v.length - words + n) - 1) 0#32)
    (fun n v' => v'.length = v.length ∧ ∀ i, i < v.length → v'.getD i 0#32 = if i < words ∧ words - n ≤ i then 0#32 else v1.getD i 0#32)
    (by
      refine ⟨h1.1, fun i hi => ?_⟩
      rw [if_neg (by omega)]) (by
      rintro n hn v' ⟨hl, hv⟩
      refine ⟨by simpa using hl, fun i hi => ?_⟩
      rw [getD_set_eq _ _ _ _ _ (by omega)]
      by_cases h1 : v.length - (v.length - words + n) - 1 = i
      · rw [if_pos h1, if_pos (by omega)]
      · rw [if_neg h1, hv i hi]
        by_cases h2 : i < words ∧ words - n ≤ i
        · rw [if_pos h2, if_pos (by omega)]
        · rw [if_neg h2, if_neg (by omega)])
  rw [bnShlWord]
  simp only
  rw [if_neg (by omega), ← hv1]
  congr 1
  apply list_ext_getD 0#32
  · rw [h2.1]; simp; omega
  · intro i hi
    rw [h2.1] at hi
    rw [h2.2 i hi]
    by_cases h3 : i < words
    · rw [if_pos (by omega), List.getD_append _ _ _ _ (by simpa using h3), getD_replicate0]
    · rw [if_neg (by omega), h1.2 i hi, if_pos (by omega), List.getD_append_right _ _ _ _ (by simp; omega), List.getD_eq_getElem _ _ (by omega),
        List.getD_eq_getElem _ _ (by simp; omega), List.getElem_take]
      simp

theorem shr1Loop_length (b : U32) (v : List U32) : (shr1Loop b v).length = v.length := by
  induction v generalizing b with
  | nil => rfl
  | cons w ws ih => simp [shr1Loop, ih]

theorem shr1Loop_spec (b : Nat) (hb : b ≤ 1) (bit : U32) (hbit : bit.toNat = 2 ^ 31 * b) (v : List U32) :
    value (shr1Loop bit v).reverse = (value v.reverse + 2 ^ (32 * v.length) * b) / 2 := by
  induction v generalizing b bit with
  | nil => simp [shr1Loop, value]; omega
  | cons w ws ih =>
    have hw := w.isLt
    have h1 : (w <<< 31).toNat = 2 ^ 31 * (w.toNat % 2) := by
      rw [BitVec.toNat_shiftLeft, Nat.shiftLeft_eq]; omega
    have h2 : ((w >>> 1) ||| bit).toNat = w.toNat / 2 + 2 ^ 31 * b := by
      rw [BitVec.toNat_or, BitVec.toNat_ushiftRight, Nat.shiftRight_eq_div_pow, hbit, Nat.or_comm,
        ← Nat.two_pow_add_eq_or_of_lt (by omega), Nat.add_comm, pow_one]
    rw [shr1Loop, List.reverse_cons, value_append, ih (w.toNat % 2) (by omega) _ h1, List.reverse_cons, value_append]
    simp only [value, Nat.mul_zero, Nat.add_zero, List.length_reverse, shr1Loop_length, h2, List.length_cons]
    rw [show 32 * (ws.length + 1) = 32 * ws.length + 32 by ring, pow_add]
    have e : value ws.reverse + 2 ^ (32 * ws.length) * w.toNat + 2 ^ (32 * ws.length) * 2 ^ 32 * b
        = value ws.reverse + 2 ^ (32 * ws.length) * (w.toNat % 2) + 2 * (2 ^ (32 * ws.length) * (w.toNat / 2 + 2 ^ 31 * b)) := by
      have := Nat.div_add_mod w.toNat 2
      calc _ = value ws.reverse + 2 ^ (32 * ws.length) * (2 * (w.toNat / 2) + w.toNat % 2) + 2 ^ (32 * ws.length) * 2 ^ 32 * b := by rw [this]
        _ = _ := by ring
    rw [e, Nat.add_mul_div_left _ _ (by decide)]

theorem bnShr1_length (v : List U32) : (bnShr1 v).length = v.length := by simp [bnShr1, shr1Loop_length]

theorem bnShr1_value (v : List U32) : value (bnShr1 v) = value v / 2 := by
  rw [bnShr1, shr1Loop_spec 0 (by decide) 0#32 rfl]; simp

/-! ### slice -/

theorem bnSlice_spec (k : Nat) (v : List U32) (start : Nat) (h : start / 32 + bnN k ≤ v.length) :
    bnSlice k v start = .ok ((v.drop (start / 32)).take (bnN k)) := by
  obtain ⟨rv, e, hl, hv⟩ := loop_inv (n := bnN k) (s := List.replicate (bnN k) 0#32) (body := fun rv n => do
      let w ← rd v (n + start / 32)
      wr rv n w)
    (fun n rv => rv.length = bnN k ∧ ∀ i, i < n → rv.getD i 0#32 = v.getD (i + start / 32) 0#32)
    ⟨by simp, fun i hi => by omega⟩ (by
      rintro n hn rv ⟨hl, hv⟩
      rw [rd_ok (by omega), loop_ok_bind, wr_ok _ (by omega)]
      refine ⟨_, rfl, by simpa using hl, fun i hi => ?_⟩
      rw [getD_set_eq _ _ _ _ _ (by omega)]
      by_cases h1 : n = i
      · subst h1
        rw [if_pos rfl, List.getD_eq_getElem _ _ (by omega)]
      · rw [if_neg h1, hv i (by omega)])
  rw [bnSlice, e]
  congr 1
  apply list_ext_getD 0#32
  · simp [hl]; omega
  · intro i hi
    rw [hv i (by omega), List.getD_eq_getElem _ _ (by omega), List.getD_eq_getElem _ _ (by simp; omega), List.getElem_take, List.getElem_drop]
    congr 1; omega

theorem bnSlice_ub (k : Nat) (v : List U32) (start : Nat) (h : v.length < start / 32 + bnN k) (hk : 0 < k) : bnSlice k v start = .error .ub := by
  have hN : 0 < bnN k := by unfold bnN; omega
  by_cases h0 : v.length ≤ start / 32
  · apply loop_error (m := 1) _ (by omega)
    rw [loop, loop]
    show (rd v (0 + start / 32) >>= fun w => wr _ 0 w) = _
    rw [rd_ub (by omega)]; rfl
  · apply loop_error (m := v.length - start / 32 + 1) _ (by omega)
    obtain ⟨rv, e, hl⟩ := loop_inv (n := v.length - start / 32) (s := List.replicate (bnN k) 0#32) (body := fun rv n => do
        let w ← rd v (n + start / 32)
        wr rv n w)
      (fun n rv => rv.length = bnN k) (by simp) (by
        rintro n hn rv hl
        rw [rd_ok (by omega), loop_ok_bind, wr_ok _ (by omega)]
        exact ⟨_, rfl, by simpa using hl⟩)
    rw [loop, e]
    show (rd v (v.length - start / 32 + start / 32) >>= fun w => wr _ _ w) = _
    rw [rd_ub (by omega)]; rfl

theorem bnSlice_value (k : Nat) (v : List U32) (start : Nat) (h : start / 32 + bnN k ≤ v.length) :
    ∃ r, bnSlice k v start = .ok r ∧ r.length = bnN k ∧ value r = value v / 2 ^ (32 * (start / 32)) % 2 ^ (32 * bnN k) := by
  refine ⟨_, bnSlice_spec k v start h, by simp; omega, ?_⟩
  rw [value_take _ _ (by simp; omega), value_drop _ _ (by omega)]

/-! ### comparison and swap -/

theorem or_foldl_zero (l : List U32) (x : U32) : l.foldl (· ||| ·) x = 0#32 ↔ x = 0#32 ∧ ∀ y ∈ l, y = 0#32 := by
  induction l generalizing x with
  | nil => simp
  | cons a as ih =>
    rw [List.foldl_cons, ih, BitVec.or_eq_zero_iff]
    simp [and_assoc]

theorem bnEq_iff (a b : List U32) (hl : a.length = b.length) : bnEq a b = true ↔ a = b := by
  rw [bnEq, beq_iff_eq, or_foldl_zero]
  constructor
  · rintro ⟨_, h⟩
    refine List.ext_getElem hl (fun i h1 h2 => ?_)
    have := h (a[i] ^^^ b[i]) (List.mem_iff_getElem.mpr ⟨i, by simp; omega, by simp⟩)
    exact BitVec.xor_eq_zero_iff.mp this
  · rintro rfl
    refine ⟨rfl, fun y hy => ?_⟩
    obtain ⟨i, hi, rfl⟩ := List.mem_iff_getElem.mp hy
    simp

theorem bnCtimeSwap_eq (s : Bool) (a b : List U32) (hl : a.length = b.length) : bnCtimeSwap s a b = if s then (b, a) else (a, b) := by
  have h : ∀ a b : List U32, a.length = b.length →
      (bnXor a (bnAnd (List.replicate a.length (0xffffffff#32 * (if s then 1#32 else 0#32))) (bnXor a b)) = if s then b else a) ∧
      (bnXor b (bnAnd (List.replicate a.length (0xffffffff#32 * (if s then 1#32 else 0#32))) (bnXor a b)) = if s then a else b) := by
    intro a
    induction a with
    | nil =>
      intro b hb
      match b, hb with
      | [], _ => cases s <;> simp [bnXor, bnAnd]
    | cons x xs ih =>
      intro b hb
      match b, hb with
      | y :: ys, hb =>
        obtain ⟨i1, i2⟩ := ih ys (by simpa using hb)
        have hx1 : 0xffffffff#32 &&& (x ^^^ y) = x ^^^ y := by
          rw [show (0xffffffff#32) = BitVec.allOnes 32 by rfl, BitVec.allOnes_and]
        have hx2 : 0#32 &&& (x ^^^ y) = 0#32 := by simp
        simp only [bnXor, bnAnd] at i1 i2
        cases s
        · simp only [Bool.false_eq_true, if_false] at i1 i2 ⊢
          simp only [bnXor, bnAnd, List.length_cons, List.replicate_succ, List.zipWith_cons_cons, show (0xffffffff#32 * 0#32) = 0#32 by rfl, hx2]
          rw [show (0xffffffff#32 * 0#32) = 0#32 by rfl] at i1 i2
          rw [i1, i2]; simp
        · simp only [if_true] at i1 i2 ⊢
          rw [show (0xffffffff#32 * 1#32) = 0xffffffff#32 by rfl] at i1 i2 ⊢
          simp only [bnXor, bnAnd, List.length_cons, List.replicate_succ, List.zipWith_cons_cons, hx1]
          rw [i1, i2, ← BitVec.xor_assoc, BitVec.xor_self, BitVec.zero_xor, BitVec.xor_comm x y, ← BitVec.xor_assoc, BitVec.xor_self, BitVec.zero_xor]
          exact ⟨rfl, rfl⟩
  rw [bnCtimeSwap, (h a b hl).1, (h a b hl).2]
  cases s <;> rfl

/-! ### naive_reduce -/

theorem top_value (s : List U32) (h : 0 < s.length) :
    ∃ w, rd s (s.length - 1) = .ok w ∧ (w = 0#32 ↔ value s < 2 ^ (32 * (s.length - 1))) := by
  have h1 : s.length - 1 < s.length := by omega
  refine ⟨s[s.length - 1], rd_ok h1, ?_⟩
  have hv := getElem_of_value s _ h1
  have hlt := value_lt s
  have hlt2 : value s / 2 ^ (32 * (s.length - 1)) < 2 ^ 32 := by
    rw [Nat.div_lt_iff_lt_mul (by positivity), ← pow_add]
    refine lt_of_lt_of_le hlt (Nat.pow_le_pow_right (by decide) (by omega))
  rw [Nat.mod_eq_of_lt hlt2] at hv
  constructor
  · intro e
    rw [e] at hv
    exact (Nat.div_eq_zero_iff_lt (by positivity)).mp hv.symm
  · intro e
    apply BitVec.eq_of_toNat_eq
    rw [hv, Nat.div_eq_of_lt e]; rfl

theorem bnShlWord_one (s : List U32) (h : 0 < s.length) (hs : value s < 2 ^ (32 * (s.length - 1))) :
    ∃ s', bnShlWord s 1 = .ok s' ∧ s'.length = s.length ∧ value s' = value s * 2 ^ 32 := by
  refine ⟨_, bnShlWord_eq s 1 h, by simp; omega, ?_⟩
  rw [value_append, value_replicate_zero, value_take _ _ (by omega), Nat.mod_eq_of_lt hs]
  simp [Nat.mul_comm]

theorem normLoop_zero (fuel shift : Nat) (s : List U32) (h : 0 < s.length) (hs : value s = 0) : normLoop fuel s shift = .ok none := by
  induction fuel generalizing s shift with
  | zero =>
    obtain ⟨w, e, hw⟩ := top_value s h
    rw [normLoop, e, loop_ok_bind, if_pos (hw.mpr (by rw [hs]; positivity))]; rfl
  | succ fuel ih =>
    obtain ⟨w, e, hw⟩ := top_value s h
    obtain ⟨s', e', hl, hv⟩ := bnShlWord_one s h (by rw [hs]; positivity)
    rw [normLoop, e, loop_ok_bind, if_pos (hw.mpr (by rw [hs]; positivity)), e', loop_ok_bind]
    exact ih _ s' (by omega) (by rw [hv, hs, Nat.zero_mul])

theorem normLoop_spec (fuel shift : Nat) (s : List U32) (h : 0 < s.length) (hs : 2 ^ (32 * (s.length - 1)) ≤ value s * 2 ^ (32 * fuel)) :
    ∃ s' sh, normLoop fuel s shift = .ok (some (s', shift + sh)) ∧ s'.length = s.length ∧ value s' = value s * 2 ^ (32 * sh) ∧
      2 ^ (32 * (s.length - 1)) ≤ value s' := by
  induction fuel generalizing s shift with
  | zero =>
    obtain ⟨w, e, hw⟩ := top_value s h
    have hs' : 2 ^ (32 * (s.length - 1)) ≤ value s := by simpa using hs
    refine ⟨s, 0, ?_, rfl, by simp, hs'⟩
    rw [normLoop, e, loop_ok_bind, if_neg (fun c => by have := hw.mp c; omega)]; rfl
  | succ fuel ih =>
    obtain ⟨w, e, hw⟩ := top_value s h
    by_cases hc : value s < 2 ^ (32 * (s.length - 1))
    · obtain ⟨s', e', hl, hv⟩ := bnShlWord_one s h hc
      rw [normLoop, e, loop_ok_bind, if_pos (hw.mpr hc), e', loop_ok_bind]
      obtain ⟨s2, sh, e2, hl2, hv2, ht2⟩ := ih (shift + 1) s' (by omega) (by
        rw [hl, hv, mul_assoc, ← pow_add, show 32 + 32 * fuel = 32 * (fuel + 1) by ring]; exact hs)
      refine ⟨s2, sh + 1, ?_, by omega, ?_, by rw [← hl]; exact ht2⟩
      · rw [e2, show shift + 1 + sh = shift + (sh + 1) by omega]
      · rw [hv2, hv, mul_assoc, ← pow_add]; congr 2; ring
    · refine ⟨s, 0, ?_, rfl, by simp, by omega⟩
      rw [normLoop, e, loop_ok_bind, if_neg (fun c => hc (hw.mp c))]; rfl

/-- What the subtraction loop computes, for every start value. -/
theorem reduceLoop_spec (m p : Nat) (hp : 0 < p) (c s : List U32) (hl : c.length = s.length) (hs : value s = p * 2 ^ m) :
    (reduceLoop (m + 1) c s).length = c.length ∧
    value (reduceLoop (m + 1) c s) = if value c < 2 * (p * 2 ^ m) then value c % p else value c - p * (2 ^ (m + 1) - 1) := by
  induction m generalizing c s with
  | zero =>
    have hsub := bnSub_spec c s hl
    have hlen := bnSub_length c s hl
    have hb := bnSub_borrow c s hl
    rw [reduceLoop]
    simp only [reduceLoop]
    simp only [pow_zero, Nat.mul_one] at hs ⊢
    cases hbb : (bnSub c s).1
    · rw [hbb] at hsub hb
      simp only [Bool.false_eq_true, if_false, false_iff] at hsub hb ⊢
      refine ⟨by omega, ?_⟩
      have e : value (bnSub c s).2 = value c - p := by omega
      rw [e]
      split
      · rw [Nat.mod_eq_sub_mod (by omega), Nat.mod_eq_of_lt (by omega)]
      · simp
    · rw [hbb] at hb
      simp only [true_iff, if_true] at hb ⊢
      refine ⟨trivial, ?_⟩
      rw [if_pos (by omega), Nat.mod_eq_of_lt (by omega)]
  | succ m ih =>
    have hsub := bnSub_spec c s hl
    have hlen := bnSub_length c s hl
    have hb := bnSub_borrow c s hl
    have hshr := bnShr1_value s
    have hp2 : p * 2 ^ (m + 1) = 2 * (p * 2 ^ m) := by rw [pow_succ]; ring
    rw [hs, hp2, Nat.mul_div_cancel_left _ (by decide)] at hshr
    rw [reduceLoop]
    simp only
    have hM : 0 < p * 2 ^ m := Nat.mul_pos hp (by positivity)
    have e4 : p * (2 ^ (m + 1 + 1) - 1) = 2 * (p * 2 ^ m) + p * (2 ^ (m + 1) - 1) := by
      have h1 : 2 ^ (m + 1 + 1) - 1 = 2 ^ (m + 1) + (2 ^ (m + 1) - 1) := by
        have := Nat.two_pow_pos (m + 1); rw [pow_succ 2 (m + 1)]; omega
      rw [h1, mul_add, hp2]
    have e5 : p * (2 ^ (m + 1) - 1) = 2 * (p * 2 ^ m) - p := by rw [Nat.mul_sub, hp2, Nat.mul_one]
    have hpm : p ≤ p * 2 ^ m := Nat.le_mul_of_pos_right p (by positivity)
    cases hbb : (bnSub c s).1
    · rw [hbb] at hsub hb
      simp only [Bool.false_eq_true, if_false, false_iff, Nat.mul_zero, Nat.add_zero] at hsub hb ⊢
      obtain ⟨i1, i2⟩ := ih (bnSub c s).2 (bnShr1 s) (by rw [bnShr1_length]; omega) hshr
      refine ⟨by omega, ?_⟩
      have e : value (bnSub c s).2 = value c - 2 * (p * 2 ^ m) := by omega
      rw [i2, e, hp2, e4]
      by_cases hc : value c < 2 * (2 * (p * 2 ^ m))
      · rw [if_pos (by omega), if_pos hc, show value c = (value c - 2 * (p * 2 ^ m)) + p * (2 * 2 ^ m) by
          rw [show p * (2 * 2 ^ m) = 2 * (p * 2 ^ m) by ring]; omega, Nat.add_mul_mod_self_left]
        congr 1
        rw [show p * (2 * 2 ^ m) = 2 * (p * 2 ^ m) by ring]; omega
      · rw [if_neg (by omega), if_neg hc]; omega
    · rw [hbb] at hb
      simp only [true_iff, if_true] at hb ⊢
      obtain ⟨i1, i2⟩ := ih c (bnShr1 s) (by rw [bnShr1_length]; omega) hshr
      refine ⟨i1, ?_⟩
      rw [i2, if_pos (by omega), if_pos (by omega)]

end Verif.Proof

namespace Verif.Proof
open Verif.Model Verif.Spec

/-- `naive_reduce` for every dividend and non-zero divisor that survives the conversion to the dividend's width. `sh` is the number of
words the divisor is shifted up. -/
theorem bnNaiveReduce_spec (bits k : Nat) (v p : List U32) (hv : v.length = bnN bits) (hp : p.length = bnN k) (h0 : value p ≠ 0)
    (hfit : value p < 2 ^ (32 * (min k bits / 32))) (sh : Nat) (hsh : 2 ^ (32 * (bnN bits - 1)) ≤ value p * 2 ^ (32 * sh))
    (hsh2 : value p * 2 ^ (32 * sh) < 2 ^ (32 * bnN bits)) :
    ∃ r, bnNaiveReduce bits k v p = .ok r ∧ r.length = bnN k ∧
      value r = (if value v < 2 * (value p * 2 ^ (32 * sh)) then value v % value p else value v - value p * (2 ^ (32 * sh + 1) - 1))
        % 2 ^ (32 * (min k bits / 32)) := by
  have hN : 0 < bnN bits := by
    by_contra hc
    have : bnN bits = 0 := by omega
    rw [this] at hsh2
    have : value p * 2 ^ (32 * sh) ≠ 0 := Nat.mul_ne_zero h0 (by positivity)
    simp at hsh2; omega
  have hcl := bnConvert_length bits k p
  have hcv := bnConvert_value bits k p hp
  rw [Nat.mod_eq_of_lt hfit] at hcv
  have hfuel : 2 ^ (32 * ((bnConvert bits k p).length - 1)) ≤ value (bnConvert bits k p) * 2 ^ (32 * (bnConvert bits k p).length) := by
    rw [hcl, hcv]
    calc 2 ^ (32 * (bnN bits - 1)) ≤ 2 ^ (32 * bnN bits) := Nat.pow_le_pow_right (by decide) (by omega)
      _ ≤ _ := Nat.le_mul_of_pos_left _ (by omega)
  obtain ⟨s, t, e, hsl, hsv, hst⟩ := normLoop_spec (bnConvert bits k p).length 0 (bnConvert bits k p) (by omega) hfuel
  rw [hcl] at hsl hst
  rw [hcv] at hsv
  have hslt := value_lt s
  rw [hsl] at hslt
  have ht : t = sh := by
    have hN2 : 32 * bnN bits = 32 * (bnN bits - 1) + 32 := by omega
    have hp0 : 0 < value p := by omega
    rw [hsv] at hslt hst
    rcases Nat.lt_trichotomy t sh with h | h | h
    · exfalso
      have h1 : 2 ^ (32 * sh) = 2 ^ (32 * t) * 2 ^ (32 * (sh - t)) := by rw [← pow_add]; congr 1; omega
      have h2 : 2 ^ 32 ≤ 2 ^ (32 * (sh - t)) := Nat.pow_le_pow_right (by decide) (by omega)
      have h3 : value p * 2 ^ (32 * t) * 2 ^ 32 ≤ value p * 2 ^ (32 * sh) := by
        rw [h1, ← mul_assoc]; exact Nat.mul_le_mul_left _ h2
      have h4 : 2 ^ (32 * (bnN bits - 1)) * 2 ^ 32 ≤ value p * 2 ^ (32 * t) * 2 ^ 32 := Nat.mul_le_mul_right _ hst
      rw [← pow_add, ← hN2] at h4
      omega
    · exact h
    · exfalso
      have h1 : 2 ^ (32 * t) = 2 ^ (32 * sh) * 2 ^ (32 * (t - sh)) := by rw [← pow_add]; congr 1; omega
      have h2 : 2 ^ 32 ≤ 2 ^ (32 * (t - sh)) := Nat.pow_le_pow_right (by decide) (by omega)
      have h3 : value p * 2 ^ (32 * sh) * 2 ^ 32 ≤ value p * 2 ^ (32 * t) := by
        rw [h1, ← mul_assoc]; exact Nat.mul_le_mul_left _ h2
      have h4 : 2 ^ (32 * (bnN bits - 1)) * 2 ^ 32 ≤ value p * 2 ^ (32 * sh) * 2 ^ 32 := Nat.mul_le_mul_right _ hsh
      rw [← pow_add, ← hN2] at h4
      omega
  subst ht
  obtain ⟨rl, rv⟩ := reduceLoop_spec (32 * t) (value p) (by omega) v s (by omega) hsv
  refine ⟨bnConvert k bits (reduceLoop ((0 + t) * 32 + 1) v s), ?_, bnConvert_length k bits _, ?_⟩
  · rw [bnNaiveReduce]
    rw [e, loop_ok_bind]
    rfl
  · rw [Nat.zero_add, Nat.mul_comm t 32, bnConvert_value k bits _ (by omega), rv, Nat.min_comm bits k]

theorem bnNaiveReduce_zero (bits k : Nat) (v p : List U32) (hb : 0 < bits) (hp : p.length = bnN k)
    (h0 : value p % 2 ^ (32 * (min k bits / 32)) = 0) : bnNaiveReduce bits k v p = .error .diverges := by
  have hN : 0 < bnN bits := by unfold bnN; omega
  rw [bnNaiveReduce]
  rw [normLoop_zero _ _ _ (by rw [bnConvert_length]; exact hN) (by rw [bnConvert_value _ _ _ hp, h0]), loop_ok_bind]

/-- The shift count of `naive_reduce` exists and is unique: it is the number of leading zero words. -/
theorem shift_exists (N x : Nat) (h0 : x ≠ 0) (hx : x < 2 ^ (32 * N)) :
    ∃ sh, sh < N ∧ 2 ^ (32 * (N - 1)) ≤ x * 2 ^ (32 * sh) ∧ x * 2 ^ (32 * sh) < 2 ^ (32 * N) := by
  induction N with
  | zero => simp at hx; omega
  | succ N ih =>
    by_cases h : 2 ^ (32 * N) ≤ x
    · exact ⟨0, by omega, by simpa using h, by simpa using hx⟩
    · obtain ⟨sh, h1, h2, h3⟩ := ih (by omega)
      refine ⟨sh + 1, by omega, ?_, ?_⟩
      · rw [show 32 * (N + 1 - 1) = 32 * (N - 1) + 32 by omega, show 32 * (sh + 1) = 32 * sh + 32 by ring, pow_add, pow_add, ← mul_assoc]
        exact Nat.mul_le_mul_right _ h2
      · rw [show 32 * (N + 1) = 32 * N + 32 by ring, show 32 * (sh + 1) = 32 * sh + 32 by ring, pow_add, pow_add, ← mul_assoc]
        exact Nat.mul_lt_mul_of_pos_right h3 (by positivity)

/-- `operator*` writes outside its result when `Bits mod 32` is between 1 and 16. -/
theorem bnMul_ub (bits : Nat) (a b : List U32) (ha : a.length = bnN bits) (hb : b.length = bnN bits) (hr : bnN (2 * bits) < 2 * bnN bits) :
    bnMul bits a b = .error .ub := by
  have hbit : bnN (2 * bits) + 1 = 2 * bnN bits := by unfold bnN at *; omega
  rw [bnMul_eq]
  generalize bnN bits = N at *
  generalize bnN (2 * bits) = L at *
  obtain ⟨M, rfl⟩ : ∃ M, N = M + 1 := ⟨N - 1, by omega⟩
  have key : ∃ x, (loop M (List.replicate L 0#32) (fun x i => do
    let s ← loop (M + 1) (x, 0#64) (mulInner a b i)
    wr s.1 (i + (M + 1)) ((s.2 &&& 0xFFFFFFFF#64).setWidth 32)) : Out (List U32)) = .ok x ∧ x.length = L := by
    refine loop_inv (fun _ (x : List U32) => x.length = L) (by simp) ?_
    rintro i hi x hxl
    obtain ⟨⟨y, t⟩, e, hyl, -⟩ := mulInner_spec a b x i (M + 1) L hxl (by omega) hb (by omega)
    simp only at hyl
    rw [e, loop_ok_bind, wr_ok _ (by simp only; omega)]
    exact ⟨_, rfl, by simpa using hyl⟩
  obtain ⟨x, e, hxl⟩ := key
  rw [loop, e]
  obtain ⟨⟨y, t⟩, e', hyl, -⟩ := mulInner_spec a b x M (M + 1) L hxl (by omega) hb (by omega)
  simp only at hyl
  show (loop (M + 1) (x, 0#64) (mulInner a b M) >>= _) = _
  rw [e', loop_ok_bind, wr_ub _ (by simp only; omega)]

end Verif.Proof
