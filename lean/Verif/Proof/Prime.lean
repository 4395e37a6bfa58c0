import Verif.Model.Prime
import Verif.Spec.Prime
import Verif.Proof.Mont
import Verif.Proof.Rsa
import Verif.Proof.Random
import Mathlib.Tactic.NormNum.Prime
import Mathlib.Tactic.IntervalCases
import Mathlib.FieldTheory.Finite.Basic

namespace Verif.Proof
open Verif.Model Verif.Spec

/-! ### the table -/

def smallPrimes : List Nat := [2, 3, 5, 7, 11, 13, 17, 19, 23, 29, 31, 37, 41, 43, 47, 53, 59, 61, 67, 71, 73, 79, 83]

/-- trial division by the primes below 89 -/
def trial (n : Nat) : List Nat → Bool
  | [] => true
  | q :: qs => if n < q * q then true else if n % q = 0 then false else trial n qs

theorem trial_true (n : Nat) : ∀ (qs : List Nat), trial n qs = true → ∀ q ∈ qs, (∀ p ∈ qs, ∀ p' ∈ qs, True) → (List.Pairwise (· < ·) qs) → q * q ≤ n → n % q ≠ 0
  | [], _, q, hq, _, _, _ => by simp at hq
  | a :: qs, h, q, hq, _, hp, hle => by
    rw [trial] at h
    rw [List.pairwise_cons] at hp
    split at h
    · next hlt =>
      rcases List.mem_cons.mp hq with rfl | hq'
      · omega
      · have := hp.1 q hq'
        have : a * a ≤ q * q := Nat.mul_le_mul (by omega) (by omega)
        omega
    · split at h
      · simp at h
      · next h2 =>
        rcases List.mem_cons.mp hq with rfl | hq'
        · exact h2
        · exact trial_true n qs h q hq' (by simp) hp.2 hle

theorem trial_false (n : Nat) : ∀ (qs : List Nat), trial n qs = false → (∀ q ∈ qs, 2 ≤ q) → ¬ n.Prime
  | [], h, _ => by simp [trial] at h
  | a :: qs, h, h2 => by
    rw [trial] at h
    split at h
    · simp at h
    · next hlt =>
      split at h
      · next hd =>
        intro hp
        have ha := h2 a (by simp)
        rcases (Nat.dvd_prime hp).mp (Nat.dvd_of_mod_eq_zero hd) with h | h
        · omega
        · rw [h] at hlt
          have : n * 2 ≤ n * n := Nat.mul_le_mul_left _ hp.two_le
          have := hp.pos
          omega
      · exact trial_false n qs h (fun q hq => h2 q (List.mem_cons_of_mem _ hq))

theorem small_mem {q : Nat} (hp : q.Prime) (h : q < 89) : q ∈ smallPrimes := by
  interval_cases q <;> first | decide | (exact absurd hp (by norm_num))

theorem trial_iff (n : Nat) (h2 : 2 ≤ n) (h : n < 7921) : trial n smallPrimes = true ↔ n.Prime := by
  constructor
  · intro ht
    by_contra hn
    have hm := Nat.minFac_prime (n := n) (by omega)
    have hsq := Nat.minFac_sq_le_self (by omega) hn
    rw [sq] at hsq
    have hlt : n.minFac < 89 := by
      by_contra hge
      have : 89 * 89 ≤ n.minFac * n.minFac := Nat.mul_le_mul (by omega) (by omega)
      omega
    exact trial_true n smallPrimes ht _ (small_mem hm hlt) (by simp) (by decide) hsq (Nat.mod_eq_zero_of_dvd (Nat.minFac_dvd n))
  · intro hp
    by_contra hf
    exact trial_false n smallPrimes (by simpa using hf) (by decide) hp

/-- Walks through the numbers `n, n+1, …` and the table together. -/
def walk : Nat → Nat → List Nat → Bool
  | 0, _, l => l.isEmpty
  | k + 1, n, [] => !trial n smallPrimes && walk k (n + 1) []
  | k + 1, n, p :: ps => if n = p then trial n smallPrimes && walk k (n + 1) ps else !trial n smallPrimes && walk k (n + 1) (p :: ps)

theorem walk_spec : ∀ (k n : Nat) (l : List Nat), walk k n l = true → (∀ p ∈ l, n ≤ p ∧ p < n + k) ∧ ∀ m, n ≤ m → m < n + k → (m ∈ l ↔ trial m smallPrimes = true)
  | 0, n, l, h => by
    rw [walk, List.isEmpty_iff] at h
    subst h
    exact ⟨by simp, fun m h1 h2 => by omega⟩
  | k + 1, n, [], h => by
    rw [walk, Bool.and_eq_true, Bool.not_eq_true'] at h
    obtain ⟨_, h2⟩ := walk_spec k (n + 1) [] h.2
    refine ⟨by simp, fun m h3 h4 => ?_⟩
    rcases Nat.eq_or_lt_of_le h3 with rfl | h5
    · simp [h.1]
    · exact h2 m (by omega) (by omega)
  | k + 1, n, p :: ps, h => by
    rw [walk] at h
    split at h
    · next he =>
      subst he
      rw [Bool.and_eq_true] at h
      obtain ⟨h1, h2⟩ := walk_spec k (n + 1) ps h.2
      refine ⟨fun q hq => ?_, fun m h3 h4 => ?_⟩
      · rcases List.mem_cons.mp hq with rfl | hq
        · omega
        · have := h1 q hq; omega
      · rcases Nat.eq_or_lt_of_le h3 with rfl | h5
        · simp [h.1]
        · rw [← h2 m (by omega) (by omega), List.mem_cons, or_iff_right (by omega)]
    · next he =>
      rw [Bool.and_eq_true, Bool.not_eq_true'] at h
      obtain ⟨h1, h2⟩ := walk_spec k (n + 1) (p :: ps) h.2
      refine ⟨fun q hq => by have := h1 q hq; omega, fun m h3 h4 => ?_⟩
      rcases Nat.eq_or_lt_of_le h3 with rfl | h5
      · rw [h.1]
        refine ⟨fun hm => absurd (h1 _ hm) (by omega), fun hf => by simp at hf⟩
      · exact h2 m (by omega) (by omega)

theorem walk_table : walk 7918 2 primeTable = true := by decide +kernel

theorem table_lt {p : Nat} (h : p ∈ primeTable) : p < 7920 := by have := (walk_spec _ _ _ walk_table).1 p h; omega

theorem table_iff {n : Nat} (h : n < 7920) : n ∈ primeTable ↔ n.Prime := by
  rcases Nat.lt_or_ge n 2 with h2 | h2
  · refine ⟨fun hm => ?_, fun hp => absurd hp.two_le (by omega)⟩
    have := (walk_spec _ _ _ walk_table).1 n hm; omega
  · rw [(walk_spec _ _ _ walk_table).2 n h2 (by omega), trial_iff n h2 (by omega)]

/-! ### the loops -/

theorem montTo_zmod {w : Nat} {st : MontState} (ok : MontOk w st) (a : List U32) (ha : a.length = w) (X : ZMod (value st.N))
    (hX : (value a : ZMod (value st.N)) = X * 2 ^ (32 * w)) :
    ∃ y, montTo (32 * w) st a = .ok y ∧ y.length = w ∧ (value y : ZMod (value st.N)) = X ∧ value y ≤ value st.N := by
  obtain ⟨y, e, l, h, le, _⟩ := montTo_spec ok a ha
  refine ⟨y, e, l, ?_, le⟩
  apply (isUnit_R ok).mul_right_cancel
  rw [h, hX]

theorem eq_of_zmod {n y c : Nat} (hn : 0 < n) (hy : y ≤ n) (hc : c < n) (hc0 : c ≠ 0) : (y : ZMod n) = c ↔ y = c := by
  constructor
  · intro h
    have := zmod_mod h
    rw [Nat.mod_eq_of_lt hc] at this
    rcases Nat.eq_or_lt_of_le hy with rfl | h2
    · rw [Nat.mod_self] at this; omega
    · rwa [Nat.mod_eq_of_lt h2] at this
  · rintro rfl; rfl

theorem cast_pred {n : Nat} (hn : 0 < n) : ((n - 1 : Nat) : ZMod n) = -1 := by
  rw [Nat.cast_sub (by omega), ZMod.natCast_self]; simp

theorem mrLoop_spec {w : Nat} {st : MontState} (ok : MontOk w st) (hn : 1 < value st.N) (m1 : List U32) (hm : m1.length = w)
    (hv : value m1 = value st.N - 1) : ∀ (k : Nat) (x : List U32) (X : ZMod (value st.N)), x.length = w →
    (value x : ZMod (value st.N)) = X * 2 ^ (32 * w) →
    ∃ b, mrLoop (32 * w) st m1 k x = .ok b ∧ (b = true ↔ ∃ s, 1 ≤ s ∧ s ≤ k ∧ X ^ (2 ^ s) = -1)
  | 0, x, X, _, _ => ⟨false, rfl, ⟨fun h => by simp at h, fun ⟨s, h1, h2, _⟩ => by omega⟩⟩
  | k + 1, x, X, lx, hX => by
    obtain ⟨x', e1, l1, v1⟩ := montMul_zmod ok x x lx lx
    have v1' : (value x' : ZMod (value st.N)) = X ^ 2 * 2 ^ (32 * w) := by
      apply (isUnit_R ok).mul_right_cancel
      rw [v1, hX]; ring
    obtain ⟨y, e2, l2, v2, le2⟩ := montTo_zmod ok x' l1 (X ^ 2) v1'
    obtain ⟨b, e3, hb⟩ := mrLoop_spec ok hn m1 hm hv k x' (X ^ 2) l1 v1'
    have key : bnEq y m1 = true ↔ X ^ 2 = -1 := by
      rw [bnEq_iff y m1 (by omega), ← v2, ← cast_pred (n := value st.N) (by omega), eq_of_zmod (by omega) le2 (by omega) (by omega), ← hv]
      exact ⟨fun h => by rw [h], fun h => value_inj (by omega) h⟩
    rw [mrLoop, e1, loop_ok_bind, e2, loop_ok_bind]
    by_cases hc : bnEq y m1 = true
    · refine ⟨true, by rw [if_pos hc]; rfl, ?_⟩
      simp only [true_iff]
      exact ⟨1, le_refl _, by omega, by rw [pow_one]; exact key.mp hc⟩
    · refine ⟨b, by rw [if_neg hc]; exact e3, ?_⟩
      rw [hb]
      constructor
      · rintro ⟨s, h1, h2, h3⟩
        exact ⟨s + 1, by omega, by omega, by rw [pow_succ' 2 s, pow_mul]; exact h3⟩
      · rintro ⟨s, h1, h2, h3⟩
        rcases Nat.eq_or_lt_of_le h1 with rfl | h4
        · rw [pow_one] at h3; exact absurd (key.mpr h3) hc
        · refine ⟨s - 1, by omega, by omega, ?_⟩
          rw [← pow_mul, ← pow_succ', show s - 1 + 1 = s by omega]; exact h3

theorem mrOneLoop_spec {w : Nat} {st : MontState} (ok : MontOk w st) (hn : 2 < value st.N) (m1 dm : List U32) (hm : m1.length = w) (hd : dm.length = w)
    (hv : value m1 = value st.N - 1) (d r a : Nat) (hdm : (value dm : ZMod (value st.N)) = (d : ZMod (value st.N)) * 2 ^ (32 * w)) (hd0 : 0 < d)
    (hdn : d < value st.N) (ha : a < 2 ^ 32) (hr : 0 < r) :
    ∃ b, mrOneLoop (32 * w) st dm r a m1 = .ok b ∧
      (b = true ↔ (a : ZMod (value st.N)) ^ d = 1 ∨ ∃ s < r, (a : ZMod (value st.N)) ^ (2 ^ s * d) = -1) := by
  have hw := ok.hw
  obtain ⟨l1, v1⟩ := bnOfU32_spec (32 * w) (by omega) (BitVec.ofNat 32 a)
  rw [bnN_mul32] at l1
  rw [BitVec.toNat_ofNat, Nat.mod_eq_of_lt ha] at v1
  obtain ⟨b, e2, l2, v2⟩ := montOf_zmod ok _ l1
  rw [v1] at v2
  obtain ⟨e, e3, l3, v3, le3⟩ := montTo_zmod ok dm hd _ hdm
  have ve : value e = d := (eq_of_zmod (by omega) le3 hdn (by omega)).mp v3
  obtain ⟨x, e4, l4, v4⟩ := montExp_zmod ok b e l2 l3 _ v2
  rw [ve] at v4
  obtain ⟨y, e5, l5, v5, le5⟩ := montTo_zmod ok x l4 _ v4
  obtain ⟨lo, vo⟩ := bnOfU32_spec (32 * w) (by omega) 1#32
  rw [bnN_mul32] at lo
  rw [show BitVec.toNat 1#32 = 1 by rfl] at vo
  obtain ⟨c, e6, hc⟩ := mrLoop_spec ok (by omega) m1 hm hv (r - 1) x _ l4 v4
  have k1 : bnEq y (bnOfU32 (32 * w) 1#32) = true ↔ (a : ZMod (value st.N)) ^ d = 1 := by
    have hz := eq_of_zmod (c := 1) (by omega) le5 (by omega) (by omega)
    rw [Nat.cast_one] at hz
    rw [bnEq_iff _ _ (by omega), ← v5, hz]
    exact ⟨fun h => by rw [h, vo], fun h => value_inj (by omega) (by rw [h, vo])⟩
  have k2 : bnEq y m1 = true ↔ (a : ZMod (value st.N)) ^ d = -1 := by
    rw [bnEq_iff y m1 (by omega), ← v5, ← cast_pred (n := value st.N) (by omega), eq_of_zmod (by omega) le5 (by omega) (by omega), ← hv]
    exact ⟨fun h => by rw [h], fun h => value_inj (by omega) h⟩
  rw [mrOneLoop]
  rw [e2, loop_ok_bind, e3, loop_ok_bind, e4, loop_ok_bind, e5, loop_ok_bind]
  by_cases h : (bnEq y (bnOfU32 (32 * w) 1#32) || bnEq y m1) = true
  · refine ⟨true, by rw [if_pos h]; rfl, ?_⟩
    simp only [true_iff]
    rw [Bool.or_eq_true, k1, k2] at h
    rcases h with h | h
    · exact Or.inl h
    · exact Or.inr ⟨0, hr, by simpa using h⟩
  · refine ⟨c, by rw [if_neg h]; exact e6, ?_⟩
    rw [Bool.or_eq_true, k1, k2, not_or] at h
    rw [hc]
    constructor
    · rintro ⟨s, h1, h2, h3⟩
      exact Or.inr ⟨s, by omega, by rw [Nat.mul_comm, pow_mul]; exact h3⟩
    · rintro (h1 | ⟨s, h1, h2⟩)
      · exact absurd h1 h.1
      · rcases Nat.eq_zero_or_pos s with rfl | h3
        · exact absurd (by simpa using h2) h.2
        · exact ⟨s, h3, by omega, by rw [← pow_mul, Nat.mul_comm]; exact h2⟩

theorem bnBit_zero (v : List U32) (h : 0 < v.length) : bnBit v 0 = .ok (if value v % 2 = 1 then 1#32 else 0#32) := by
  rw [bnBit_spec v 0 (by omega)]
  congr 1
  rw [Nat.testBit_zero]
  simp

theorem oddPart_spec : ∀ (k : Nat) (v : List U32) (r : Nat), 0 < v.length → value v ≠ 0 → value v < 2 ^ k →
    ∃ d t, oddPart k v r = .ok (d, r + t) ∧ d.length = v.length ∧ value v = 2 ^ t * value d ∧ value d % 2 = 1
  | 0, v, r, _, h0, hk => by simp at hk; omega
  | k + 1, v, r, hl, h0, hk => by
    rw [oddPart, bnBit_zero v hl, loop_ok_bind]
    by_cases h : value v % 2 = 1
    · rw [if_pos h, if_neg (by decide)]
      exact ⟨v, 0, rfl, rfl, by simp, h⟩
    · rw [if_neg h, if_pos rfl]
      have hs := bnShr1_value v
      obtain ⟨d, t, e, l, h1, h2⟩ := oddPart_spec k (bnShr1 v) (r + 1) (by rw [bnShr1_length]; exact hl) (by omega) (by rw [hs]; rw [pow_succ] at hk; omega)
      refine ⟨d, t + 1, ?_, by rw [l, bnShr1_length], ?_, h2⟩
      · rw [e]; congr 2; omega
      · rw [pow_succ', Nat.mul_assoc, ← h1, hs]; omega

theorem mrBases_spec {w : Nat} {st : MontState} {mgv m1 : List U32} {r : Nat} (P : Nat → Prop) : ∀ (l : List Nat),
    (∀ a ∈ l, ∃ b, mrOneLoop (32 * w) st mgv r a m1 = .ok b ∧ (b = true ↔ P a)) →
    ∃ b, mrBases (32 * w) st mgv r m1 l = .ok b ∧ (b = true ↔ ∀ a ∈ l, P a)
  | [], _ => ⟨true, rfl, by simp⟩
  | p :: ps, h => by
    obtain ⟨b, e1, h1⟩ := h p (by simp)
    obtain ⟨c, e2, h2⟩ := mrBases_spec P ps (fun a ha => h a (List.mem_cons_of_mem _ ha))
    rw [mrBases, e1, loop_ok_bind]
    cases b with
    | false =>
      refine ⟨false, rfl, ?_⟩
      simp only [Bool.false_eq_true, false_iff] at h1 ⊢
      intro hp; exact h1 (hp p (by simp))
    | true =>
      refine ⟨c, e2, ?_⟩
      rw [h2]
      simp only [true_iff] at h1
      exact ⟨fun hp a ha => (List.mem_cons.mp ha).elim (fun he => he ▸ h1) (hp a), fun hp a ha => hp a (List.mem_cons_of_mem _ ha)⟩

/-! ### strong probable primes -/

theorem sprp_iff {n a r d : Nat} (hn : 0 < n) (h : n - 1 = 2 ^ r * d) (hd : d % 2 = 1) :
    StrongProbablePrime n a ↔ (a : ZMod n) ^ d = 1 ∨ ∃ s < r, (a : ZMod n) ^ (2 ^ s * d) = -1 := by
  have c1 : ∀ d : Nat, (a : ZMod n) ^ d = 1 ↔ a ^ d ≡ 1 [MOD n] := by
    intro d
    rw [← ZMod.natCast_eq_natCast_iff]; push_cast; rfl
  have c2 : ∀ k : Nat, (a : ZMod n) ^ k = -1 ↔ n ∣ a ^ k + 1 := by
    intro k
    rw [← ZMod.natCast_eq_zero_iff, eq_neg_iff_add_eq_zero]; push_cast; rfl
  simp only [c1, c2]
  constructor
  · rintro ⟨r', d', h', hd', hx⟩
    have : r' = r ∧ d' = d := by
      have e : 2 ^ r' * d' = 2 ^ r * d := by rw [← h, ← h']
      clear hx h h'
      induction r' generalizing r with
      | zero =>
        cases r with
        | zero => simpa using e
        | succ r => rw [pow_succ] at e; rw [show 2 ^ r * 2 * d = 2 * (2 ^ r * d) by ring] at e; omega
      | succ r' ih =>
        cases r with
        | zero => rw [pow_succ] at e; rw [show 2 ^ r' * 2 * d' = 2 * (2 ^ r' * d') by ring] at e; omega
        | succ r =>
          rw [pow_succ, pow_succ, show 2 ^ r * 2 * d = 2 * (2 ^ r * d) by ring, show 2 ^ r' * 2 * d' = 2 * (2 ^ r' * d') by ring] at e
          obtain ⟨h1, h2⟩ := ih (r := r) (by omega)
          exact ⟨by omega, h2⟩
    rw [this.1, this.2] at hx
    exact hx
  · intro hx; exact ⟨r, d, h, hd, hx⟩

/-- The test, for every word count. -/
theorem mrPrime_spec (w : Nat) (hw : 0 < w) (num : List U32) (hl : num.length = w) :
    ∃ b, mrPrime (32 * w) num = .ok b ∧ (b = true ↔
      if value num < 7920 then (value num).Prime
      else value num % 2 = 1 ∧ ∀ a, a.Prime → a < 7920 → StrongProbablePrime (value num) a) := by
  obtain ⟨l1, v1⟩ := bnOfU32_spec (32 * w) (by omega) 7920#32
  rw [bnN_mul32] at l1
  rw [show BitVec.toNat 7920#32 = 7920 by rfl] at v1
  have hlt : bnLt num (bnOfU32 (32 * w) 7920#32) = true ↔ value num < 7920 := by
    rw [bnLt, bnSub_borrow num _ (by omega), v1]
  rw [mrPrime]
  by_cases hs : value num < 7920
  · rw [if_pos (hlt.mpr hs)]
    refine ⟨_, rfl, ?_⟩
    rw [if_pos hs, ← table_iff hs, List.any_eq_true]
    constructor
    · rintro ⟨p, hp, he⟩
      obtain ⟨l2, v2⟩ := bnOfU32_spec (32 * w) (by omega) (BitVec.ofNat 32 p)
      rw [bnN_mul32] at l2
      have hpl := table_lt hp
      rw [BitVec.toNat_ofNat, Nat.mod_eq_of_lt (by omega)] at v2
      have he := (bnEq_iff _ _ (by omega)).mp he
      rw [he, v2]; exact hp
    · intro hp
      refine ⟨_, hp, ?_⟩
      obtain ⟨l2, v2⟩ := bnOfU32_spec (32 * w) (by omega) (BitVec.ofNat 32 (value num))
      rw [bnN_mul32] at l2
      rw [BitVec.toNat_ofNat, Nat.mod_eq_of_lt (by omega)] at v2
      exact (bnEq_iff _ _ (by omega)).mpr (value_inj (by omega) v2.symm)
  · rw [if_neg (by rw [hlt]; exact hs), if_neg hs]
    rw [bnBit_zero num (by omega), loop_ok_bind]
    by_cases hodd : value num % 2 = 1
    · rw [if_pos hodd, if_neg (by decide)]
      obtain ⟨lo, vo⟩ := bnOfU32_spec (32 * w) (by omega) 1#32
      rw [bnN_mul32] at lo
      rw [show BitVec.toNat 1#32 = 1 by rfl] at vo
      have lm := bnSub_length num (bnOfU32 (32 * w) 1#32) (by omega)
      have sp := bnSub_spec num (bnOfU32 (32 * w) 1#32) (by omega)
      have nb : ¬ (bnSub num (bnOfU32 (32 * w) 1#32)).1 = true := by rw [bnSub_borrow num _ (by omega), vo]; omega
      have vm : value (bnSub num (bnOfU32 (32 * w) 1#32)).2 = value num - 1 := by
        simp only [nb] at sp
        simp at sp
        omega
      generalize (bnSub num (bnOfU32 (32 * w) 1#32)).2 = m1 at *
      have hnl := value_lt num
      rw [hl] at hnl
      obtain ⟨d, t, e1, ld, hd, hdo⟩ := oddPart_spec (32 * w) m1 0 (by omega) (by omega) (by omega)
      rw [Nat.zero_add] at e1
      obtain ⟨st, e2, hN, ok, -⟩ := montNew_spec w hw num hl hodd
      obtain ⟨mgv, e3, l3, v3⟩ := montOf_zmod ok d (by omega)
      dsimp only
      rw [e1, loop_ok_bind]
      dsimp only
      rw [e2, loop_ok_bind, e3, loop_ok_bind]
      have ht : 0 < t := by
        rcases Nat.eq_zero_or_pos t with rfl | h
        · rw [pow_zero, one_mul] at hd; omega
        · exact h
      have hdle : value d ≤ value m1 := by
        rw [hd]; exact Nat.le_mul_of_pos_left _ (by positivity)
      obtain ⟨b, e4, hb⟩ := mrBases_spec (w := w) (st := st) (mgv := mgv) (m1 := m1) (r := t) (fun a => StrongProbablePrime (value num) a) primeTable (by
        intro a ha
        have hal := table_lt ha
        obtain ⟨b, eb, hb⟩ := mrOneLoop_spec ok (by rw [hN]; omega) m1 mgv (by omega) l3 (by rw [hN]; exact vm) (value d) t a v3 (by omega) (by rw [hN]; omega)
          (by omega) ht
        refine ⟨b, eb, ?_⟩
        rw [hb, sprp_iff (r := t) (d := value d) (by omega) (by rw [← vm]; exact hd) hdo, hN])
      refine ⟨b, e4, ?_⟩
      rw [hb]
      constructor
      · intro h
        exact ⟨hodd, fun a hp hlt => h a ((table_iff hlt).mpr hp)⟩
      · rintro ⟨_, h⟩ a ha
        exact h a ((table_iff (table_lt ha)).mp ha) (table_lt ha)
    · rw [if_neg hodd, if_pos rfl]
      exact ⟨false, rfl, by simp [hodd]⟩

/-- A prime passes for every base it does not divide. -/
theorem prime_sprp {p a : Nat} (hp : p.Prime) (h2 : p ≠ 2) (ha : ¬ p ∣ a) : StrongProbablePrime p a := by
  haveI := Fact.mk hp
  have hodd : p % 2 = 1 := hp.eq_two_or_odd.resolve_left h2
  have hpos := hp.two_le
  obtain ⟨r, d, hd, he⟩ : ∃ r d, d % 2 = 1 ∧ p - 1 = 2 ^ r * d := by
    obtain ⟨r, d, h1, h2⟩ := Nat.exists_eq_two_pow_mul_odd (n := p - 1) (by omega)
    exact ⟨r, d, Nat.odd_iff.mp h1, h2⟩
  rw [sprp_iff (by omega) he hd]
  have ha0 : (a : ZMod p) ≠ 0 := by rwa [Ne, ZMod.natCast_eq_zero_iff]
  have hf := ZMod.pow_card_sub_one_eq_one ha0
  rw [he] at hf
  clear he
  induction r with
  | zero => left; simpa using hf
  | succ r ih =>
    have hsq : ((a : ZMod p) ^ (2 ^ r * d)) ^ 2 = 1 := by rw [← pow_mul, ← hf]; congr 1; ring
    rcases (sq_eq_one_iff.mp hsq) with h | h
    · rcases ih h with h | ⟨s, h1, h2⟩
      · exact Or.inl h
      · exact Or.inr ⟨s, by omega, h2⟩
    · exact Or.inr ⟨r, by omega, h⟩

end Verif.Proof
