import Verif.Proof.Prime
import Verif.Props.Bignum

/-! Properties C39 - C42: include/caligo/random_prime.h. -/

namespace Verif.Props
open Verif.Model Verif.Proof Verif.Spec

/-! ### C39 -/

/-- C39: below 7920 the test is exact, at every width. -/
theorem C39_small (K : Nat) (hK : 0 < K) (num : List U32) (hl : num.length = wordCount K) (hs : value num < 7920) :
    ∃ b, mrPrime K num = .ok b ∧ (b = true ↔ (value num).Prime) := by
  obtain ⟨l1, v1⟩ := C21_ofU32 K hK 7920#32
  rw [show BitVec.toNat 7920#32 = 7920 by rfl] at v1
  have hlt : bnLt num (bnOfU32 K 7920#32) = true := by
    rw [(C19_compare num _ (by omega)).2, v1]; exact hs
  rw [mrPrime, if_pos hlt]
  refine ⟨_, rfl, ?_⟩
  rw [← table_iff hs, List.any_eq_true]
  have hof : ∀ p, p < 7920 → (bnEq num (bnOfU32 K (BitVec.ofNat 32 p)) = true ↔ value num = p) := by
    intro p hp
    obtain ⟨l2, v2⟩ := C21_ofU32 K hK (BitVec.ofNat 32 p)
    rw [BitVec.toNat_ofNat, Nat.mod_eq_of_lt (by omega)] at v2
    rw [(C19_compare num _ (by omega)).1, v2]
  constructor
  · rintro ⟨p, hp, he⟩
    rw [hof p (table_lt hp)] at he
    rw [he]; exact hp
  · intro hp
    exact ⟨_, hp, (hof _ hs).mpr rfl⟩

example : ([7919#32, 0#32] : List U32).length = wordCount 40 ∧ value [7919#32, 0#32] < 7920 := by decide

/-! ### C40 -/

/-- C40: no prime is rejected. -/
theorem C40_primes_pass (w : Nat) (hw : 0 < w) (num : List U32) (hl : num.length = w) (hp : (value num).Prime) : mrPrime (32 * w) num = .ok true := by
  obtain ⟨b, e, hb⟩ := mrPrime_spec w hw num hl
  rw [e]
  have : b = true := by
    rw [hb]
    split
    · exact hp
    · next hs =>
      refine ⟨hp.eq_two_or_odd.resolve_left (by omega), fun a ha hlt => ?_⟩
      refine prime_sprp hp (by omega) fun hd => ?_
      have := Nat.le_of_dvd ha.pos hd
      omega
  rw [this]

example : (value [104729#32]).Prime := by
  have : value [104729#32] = 104729 := by decide
  rw [this]; norm_num

/-! ### C41 -/

theorem sprp_coprime {n q : Nat} (hq : q.Prime) (hd : q ∣ n) (h : StrongProbablePrime n q) : False := by
  obtain ⟨r, d, _, hodd, h | ⟨s, _, h⟩⟩ := h
  · have h1 : q ^ d ≡ 1 [MOD q] := h.of_dvd hd
    have h2 : q ∣ q ^ d := dvd_pow_self q (by omega)
    rw [Nat.ModEq, Nat.mod_eq_zero_of_dvd h2, Nat.mod_eq_of_lt hq.one_lt] at h1
    omega
  · have h1 : q ∣ q ^ (2 ^ s * d) + 1 := hd.trans h
    have h2 : q ∣ q ^ (2 ^ s * d) := dvd_pow_self q (by have := Nat.pos_of_ne_zero (show d ≠ 0 by omega); positivity)
    have := (Nat.dvd_add_right h2).mp h1
    exact hq.one_lt.ne' (Nat.dvd_one.mp this)

/-- C41: the test always gives a verdict, and from 7920 on it accepts exactly the odd strong probable primes to the 1000 smallest prime bases; such
numbers have no prime factor below 7920. -/
theorem C41_accepted (w : Nat) (hw : 0 < w) (num : List U32) (hl : num.length = w) (h : 7920 ≤ value num) :
    ∃ b, mrPrime (32 * w) num = .ok b ∧
      (b = true ↔ value num % 2 = 1 ∧ ∀ a, a.Prime → a < 7920 → StrongProbablePrime (value num) a) ∧
      (b = true → ∀ q, q.Prime → q ∣ value num → 7920 ≤ q) := by
  obtain ⟨b, e, hb⟩ := mrPrime_spec w hw num hl
  rw [if_neg (by omega)] at hb
  refine ⟨b, e, hb, fun ht q hq hd => ?_⟩
  by_contra hc
  exact sprp_coprime hq hd ((hb.mp ht).2 q hq (by omega))

/-- A case that meets the hypotheses of `C41_accepted`. -/
example := C41_accepted 2 (by decide) [0x10001#32, 1#32] rfl (by decide)

/-- There are exactly 1000 bases. -/
theorem C41_bases : primeTable.length = 1000 ∧ ∀ a, a ∈ primeTable ↔ a.Prime ∧ a < 7920 :=
  ⟨by decide +kernel, fun a => ⟨fun h => ⟨(table_iff (table_lt h)).mp h, table_lt h⟩, fun h => (table_iff h.2).mpr h.1⟩⟩

example : 7920 ≤ value [7921#32] := by decide
example : mrPrime 32 [7921#32] = .ok false := by decide +kernel

/-! ### C42 -/

theorem candidate_spec (w : Nat) (hw : 0 < w) (strict : Bool) (s : RandState) :
    ∃ c s', primeCandidate (32 * w) strict s = .ok (c, s') ∧ c.length = w ∧ value c % 2 = 1 ∧ (value c).testBit (32 * w - 1) = true ∧
      (strict = true → (value c).testBit (32 * w - 2) = true) := by
  have hlen : (bnRandom (32 * w) s).1.length = w := by
    rw [bnRandom, genRandom32, genRandomB_length 32 2 (by decide) _ _ s (le_refl _), bnN_mul32]
  rw [primeCandidate]
  generalize bnRandom (32 * w) s = p at *
  obtain ⟨c0, s'⟩ := p
  dsimp only at hlen ⊢
  obtain ⟨c1, e1, l1, b1⟩ := ((C21_bits c0 0).1 (by omega)).2.1
  obtain ⟨c2, e2, l2, b2⟩ := ((C21_bits c1 (32 * w - 1)).1 (by omega)).2.1
  rw [e1, loop_ok_bind, e2, loop_ok_bind]
  have odd2 : (value c2).testBit 0 = true := by rw [b2, b1]; simp
  cases strict with
  | false =>
    refine ⟨c2, s', rfl, by omega, ?_, by rw [b2]; simp, by simp⟩
    simpa using odd2
  | true =>
    obtain ⟨c3, e3, l3, b3⟩ := ((C21_bits c2 (32 * w - 2)).1 (by omega)).2.1
    refine ⟨c3, s', ?_, by omega, ?_, by rw [b3, b2]; simp, fun _ => by rw [b3]; simp⟩
    · rw [if_pos rfl, if_neg (by omega), e3]; rfl
    · have : (value c3).testBit 0 = true := by rw [b3, odd2]; simp
      simpa using this

/-- C42: no round faults, and whatever is returned is odd, has exactly `N` bits, its second bit set if asked, and passes the test. -/
theorem C42_random_prime (w : Nat) (hw : 0 < w) (strict : Bool) (fuel : Nat) : ∀ (s : RandState),
    ∃ r, randomPrime (32 * w) strict fuel s = .ok r ∧ ∀ c s', r = some (c, s') →
      c.length = w ∧ value c % 2 = 1 ∧ 2 ^ (32 * w - 1) ≤ value c ∧ value c < 2 ^ (32 * w) ∧ (strict = true → 3 * 2 ^ (32 * w - 2) ≤ value c) ∧
      mrPrime (32 * w) c = .ok true ∧ ∀ a, a.Prime → a < 7920 → StrongProbablePrime (value c) a := by
  induction fuel with
  | zero => exact fun s => ⟨none, rfl, fun _ _ h => by simp at h⟩
  | succ fuel ih =>
    intro s
    obtain ⟨c, s', e, l, ho, ht, hs⟩ := candidate_spec w hw strict s
    obtain ⟨b, eb, hb⟩ := mrPrime_spec w hw c l
    rw [randomPrime, e, loop_ok_bind]
    dsimp only
    rw [eb, loop_ok_bind]
    cases b with
    | false => exact ih s'
    | true =>
      refine ⟨some (c, s'), rfl, ?_⟩
      rintro c1 s1 h
      rw [Option.some.injEq, Prod.mk.injEq] at h
      obtain ⟨rfl, rfl⟩ := h
      have hge := Nat.ge_two_pow_of_testBit ht
      have hlt := value_lt c
      rw [l] at hlt
      have h31 : 2 ^ 31 ≤ 2 ^ (32 * w - 1) := Nat.pow_le_pow_right (by decide) (by omega)
      refine ⟨l, ho, hge, hlt, fun hst => ?_, eb, ?_⟩
      · have h2 := hs hst
        rw [Nat.testBit_eq_decide_div_mod_eq, decide_eq_true_eq] at ht h2
        obtain ⟨k, hk⟩ : ∃ k, 32 * w = k + 2 := ⟨32 * w - 2, by omega⟩
        rw [hk, show k + 2 - 2 = k by omega] at h2 ⊢
        rw [hk, show k + 2 - 1 = k + 1 by omega, pow_succ, ← Nat.div_div_eq_div_mul] at ht
        have h3 : 3 ≤ value c / 2 ^ k := by
          clear hb hge hlt h31 ih
          generalize value c / 2 ^ k = q at *
          omega
        calc 3 * 2 ^ k ≤ value c / 2 ^ k * 2 ^ k := Nat.mul_le_mul_right _ h3
          _ ≤ value c := Nat.div_mul_le_self _ _
      · rw [if_neg (by omega)] at hb
        exact (hb.mp rfl).2

/-- A case that meets the hypotheses of `C42_random_prime`. -/
example := C42_random_prime 2 (by decide) true 5 ⟨[], 1#64⟩

/-- C42: the product of two strict results has exactly `2N` bits. -/
theorem C42_product (N x y : Nat) (hN : 2 ≤ N) (hx : 3 * 2 ^ (N - 2) ≤ x) (hy : 3 * 2 ^ (N - 2) ≤ y) (hx' : x < 2 ^ N) (hy' : y < 2 ^ N) :
    2 ^ (2 * N - 1) ≤ x * y ∧ x * y < 2 ^ (2 * N) := by
  obtain ⟨k, rfl⟩ : ∃ k, N = k + 2 := ⟨N - 2, by omega⟩
  rw [show k + 2 - 2 = k by omega] at hx hy
  constructor
  · have h := Nat.mul_le_mul hx hy
    have e : 2 ^ (2 * (k + 2) - 1) = 8 * (2 ^ k * 2 ^ k) := by
      rw [show 2 * (k + 2) - 1 = k + k + 3 by omega, pow_add, pow_add]; ring
    rw [e]
    have e2 : 3 * 2 ^ k * (3 * 2 ^ k) = 9 * (2 ^ k * 2 ^ k) := by ring
    omega
  · rw [show 2 * (k + 2) = k + 2 + (k + 2) by ring, pow_add]
    exact Nat.mul_lt_mul'' hx' hy'

example : (randomPrime 32 true 1 randInit).map Option.isNone = .ok true := by decide +kernel
example : 3 * 2 ^ (8 - 2) ≤ 193 ∧ 193 < 2 ^ 8 := by decide

end Verif.Props
