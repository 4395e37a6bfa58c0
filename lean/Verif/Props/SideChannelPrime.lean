import Verif.Proof.LeakPrimeTest
import Verif.Proof.LucasTree
import Mathlib.NumberTheory.LucasPrimality
import Mathlib.NumberTheory.LegendreSymbol.QuadraticReciprocity

/-! C130 and C131: what the events of the primality test and of `random_prime` reveal about the prime.

`hard` keeps the branches and the addresses and forgets which operand `conditional` picked; the full trace has those too. -/

namespace Verif.Props

open Verif.Model Verif.Spec Verif.Proof

/-! ### C130 -/

/-- C130: the events of `random_prime` do not depend on the prime: whatever the random values were, two runs of the same number of rounds have the same events. -/
def C130_claim : Prop := ∀ (w : Nat), 0 < w → ∀ (strict : Bool) (fuel : Nat) (s s' : RandState) (p p' : List U32 × RandState), s.testValues.length = s'.testValues.length →
  randomPrime (32 * w) strict fuel s = .ok (some p) → randomPrime (32 * w) strict fuel s' = .ok (some p') →
  (randomPrimeL (32 * w) strict fuel s).trace = (randomPrimeL (32 * w) strict fuel s').trace

/-- C130: the events of the test tell everything about the number, be it prime or not, if it is odd and not below 7920; a smaller one is told if it is a prime. -/
theorem C130_test_partial (w : Nat) (hw : 0 < w) (num num' : List U32) (hl : num.length = w) (hl' : num'.length = w) (h : 7920 ≤ value num ∧ value num % 2 = 1 ∨ (value num).Prime)
    (e : (mrPrimeL (32 * w) num).trace = (mrPrimeL (32 * w) num').trace) : num = num' := by
  obtain ⟨b, eb, hb⟩ := mrPrime_spec w hw num hl
  obtain ⟨b', eb', -⟩ := mrPrime_spec w hw num' hl'
  have t := (sync_mrPrime view_some hw hl hl').trace (by rw [e]) (by rw [res_mrPrime, eb]) (by rw [res_mrPrime, eb'])
  rcases h with h | h
  · exact t.all rfl h.1 h.2
  · rcases Nat.lt_or_ge (value num) 7920 with h7 | h7
    · rw [if_pos h7] at hb
      exact t.entry (hb.mpr h) h7
    · exact t.all rfl h7 (h.eq_two_or_odd.resolve_left (by omega))

/-- A case that meets the hypotheses of `C130_test_partial`. -/
example := C130_test_partial 1 (by decide) [7927#32] [7927#32] rfl rfl (.inl ⟨by decide, by decide⟩) rfl

/-- What the events of two runs that end with a prime tell. -/
theorem told_random {v : Obs → Option Obs} (hv : View v) (w : Nat) (hw : 0 < w) (strict : Bool) (fuel fuel' : Nat) (s s' : RandState) (p p' : List U32 × RandState)
    (hs : s.testValues.length = s'.testValues.length) (h : randomPrime (32 * w) strict fuel s = .ok (some p)) (h' : randomPrime (32 * w) strict fuel' s' = .ok (some p'))
    (e : (randomPrimeL (32 * w) strict fuel s).trace.filterMap v = (randomPrimeL (32 * w) strict fuel' s').trace.filterMap v) : Told v p.1 p'.1 true true := by
  rw [← res_randomPrime] at h h'
  have m := randomPrime_more (32 * w) strict fuel fuel' s p h
  have m' := randomPrime_more (32 * w) strict fuel' fuel s' p' h'
  rw [Nat.add_comm] at m'
  rw [← m] at e h
  rw [← m'] at e h'
  exact ((sync_randomPrime hv hw strict (fuel + fuel') s s' hs).trace e h h').1

/-- C130: two runs of `random_prime` with the same events, after any number of rounds, found the same prime. -/
theorem C130_partial (w : Nat) (hw : 0 < w) (strict : Bool) (fuel fuel' : Nat) (s s' : RandState) (p p' : List U32 × RandState)
    (hs : s.testValues.length = s'.testValues.length) (h : randomPrime (32 * w) strict fuel s = .ok (some p)) (h' : randomPrime (32 * w) strict fuel' s' = .ok (some p'))
    (e : (randomPrimeL (32 * w) strict fuel s).trace = (randomPrimeL (32 * w) strict fuel' s').trace) : p.1 = p'.1 := by
  have t := told_random view_some w hw strict fuel fuel' s s' p p' hs h h' (by rw [e])
  obtain ⟨r, e1, hr⟩ := C42_random_prime w hw strict fuel s
  obtain rfl := Except.ok.inj (h.symm.trans e1)
  obtain ⟨-, ho, h1, -⟩ := hr p.1 p.2 rfl
  have h31 : 2 ^ 31 ≤ 2 ^ (32 * w - 1) := Nat.pow_le_pow_right (by decide) (by omega)
  exact t.all rfl (by omega) ho

/-- One round with a prime returns it. -/
theorem random_one (s t : RandState) (c : U32) (hc : primeCandidate 32 false s = .ok ([c], t)) (h : c.toNat.Prime) : randomPrime (32 * 1) false 1 s = .ok (some ([c], t)) := by
  have hp := C40_primes_pass 1 (by decide) [c] rfl (by rw [show value [c] = c.toNat by simp [value]]; exact h)
  rw [randomPrime, hc, loop_ok_bind]
  dsimp only
  rw [hp, loop_ok_bind]
  rfl

/-- Lucas' criterion, with a computation for the powers. -/
theorem lucas_nat {p a : Nat} (l : List Nat) (h0 : 1 < p) (hl : ∀ q ∈ l, q.Prime) (hp : p - 1 = l.prod) (h1 : powW p a (p - 1) = 1)
    (h : (l.all fun q => powW p a ((p - 1) / q) != 1) = true) : p.Prime := by
  have c : ∀ k, ((a : ZMod p) ^ k = 1 ↔ powW p a k = 1) := fun k => by
    rw [powW_eq _ _ _ h0, ← Nat.cast_one, ← Nat.cast_pow, ZMod.natCast_eq_natCast_iff', Nat.mod_eq_of_lt h0]
  refine lucas_primality p (a : ZMod p) ((c _).mpr h1) fun q hq hd => ?_
  rw [hp] at hd
  obtain ⟨x, hx, hqx⟩ := (Prime.dvd_prod_iff hq.prime).mp hd
  obtain rfl := (Nat.prime_dvd_prime_iff_eq hq (hl x hx)).mp hqx
  rw [Ne, c]
  simpa using List.all_eq_true.mp h q hx

theorem prime_2147484043 : (2147484043).Prime := by
  refine lucas_nat (a := 2) [2, 3, 3, 3, 11, 11, 137, 2399] (by norm_num) ?_ (by norm_num) (by decide +kernel) (by decide +kernel)
  simp only [List.forall_mem_cons]; norm_num

theorem prime_2147483713 : (2147483713).Prime := by
  refine lucas_nat (a := 5) [2, 2, 2, 2, 2, 2, 3, 11, 251, 4051] (by norm_num) ?_ (by norm_num) (by decide +kernel) (by decide +kernel)
  simp only [List.forall_mem_cons]; norm_num

/-- Runs that find 2147484043 and 2147483713. -/
theorem random_2147484043 : randomPrime (32 * 1) false 1 ⟨[2147484043#64], 0#64⟩ = .ok (some ([2147484043#32], ⟨[], 0#64⟩)) :=
  random_one _ _ _ (by decide +kernel) prime_2147484043

theorem random_2147483713 : randomPrime (32 * 1) false 1 ⟨[2147483713#64], 0#64⟩ = .ok (some ([2147483713#32], ⟨[], 0#64⟩)) :=
  random_one _ _ _ (by decide +kernel) prime_2147483713

theorem value_one (x : U32) : value [x] = x.toNat := by simp [value]

/-- C130 is false: with the primes 2147484043 and 2147483713 the events differ. -/
theorem C130_false : ¬ C130_claim := by
  intro h
  have hc := h 1 (by decide) false 1 ⟨[2147484043#64], 0#64⟩ ⟨[2147483713#64], 0#64⟩ _ _ rfl random_2147484043 random_2147483713
  have := C130_partial 1 (by decide) false 1 1 ⟨[2147484043#64], 0#64⟩ ⟨[2147483713#64], 0#64⟩ _ _ rfl random_2147484043 random_2147483713 hc
  exact absurd this (by decide)

example : 7920 ≤ value [7927#32] ∧ value [7927#32] % 2 = 1 := by rw [value_one]; decide
example : (value [7919#32]).Prime := by
  rw [value_one, BitVec.toNat_ofNat]; norm_num

/-! ### C131 -/

/-- C131: the branches and the addresses of `random_prime` do not depend on the prime. -/
def C131_claim : Prop := ∀ (w : Nat), 0 < w → ∀ (strict : Bool) (fuel : Nat) (s s' : RandState) (p p' : List U32 × RandState), s.testValues.length = s'.testValues.length →
  randomPrime (32 * w) strict fuel s = .ok (some p) → randomPrime (32 * w) strict fuel s' = .ok (some p') →
  hard (randomPrimeL (32 * w) strict fuel s).trace = hard (randomPrimeL (32 * w) strict fuel s').trace

/-- For a prime, the last of the comparisons with `n - 1` is Euler's criterion. -/
theorem square_iff {p a r d : Nat} (hp : p.Prime) (h7 : 7920 ≤ p) (ha : a.Prime) (hlt : a < 7920) (he : p - 1 = 2 ^ (r + 1) * d) :
    IsSquare (a : ZMod p) ↔ ¬ (a : ZMod p) ^ (2 ^ r * d) = -1 := by
  have : Fact p.Prime := ⟨hp⟩
  have h2 : p / 2 = 2 ^ r * d := by
    rw [pow_succ, show 2 ^ r * 2 * d = 2 * (2 ^ r * d) by ring] at he; omega
  have a0 : (a : ZMod p) ≠ 0 := by
    rw [Ne, ZMod.natCast_eq_zero_iff]
    exact fun h => absurd (Nat.le_of_dvd ha.pos h) (by omega)
  rw [ZMod.euler_criterion p a0, ← h2]
  have n1 : (1 : ZMod p) ≠ -1 := by
    have : Fact (2 < p) := ⟨by omega⟩
    exact (ZMod.neg_one_ne_one).symm
  constructor
  · intro h h'; exact n1 (h.symm.trans h')
  · intro h; exact (ZMod.pow_div_two_eq_neg_one_or_one p a0).resolve_right h

/-- The answer to "is `a` a square modulo `p`" tells whether `p` is a square modulo `a`, once `p` is known modulo 4. -/
theorem reciprocal {p p' a : Nat} (hp : p.Prime) (hp' : p'.Prime) (ha : a.Prime) (h7 : 7920 ≤ p) (h7' : 7920 ≤ p') (hlt : a < 7920) (ha2 : a ≠ 2) (h4 : p % 4 = p' % 4)
    (h : IsSquare (a : ZMod p) ↔ IsSquare (a : ZMod p')) : IsSquare (p : ZMod a) ↔ IsSquare (p' : ZMod a) := by
  have : Fact p.Prime := ⟨hp⟩
  have : Fact p'.Prime := ⟨hp'⟩
  have : Fact a.Prime := ⟨ha⟩
  have o := hp.eq_two_or_odd
  have oa := ha.eq_two_or_odd
  rcases (by omega : p % 4 = 1 ∨ p % 4 = 3) with h1 | h3
  · rw [ZMod.exists_sq_eq_prime_iff_of_mod_four_eq_one h1 ha2, ZMod.exists_sq_eq_prime_iff_of_mod_four_eq_one (h4 ▸ h1) ha2] at h
    exact h
  · rcases (by omega : a % 4 = 1 ∨ a % 4 = 3) with g1 | g3
    · rw [ZMod.exists_sq_eq_prime_iff_of_mod_four_eq_one g1 (by omega), ZMod.exists_sq_eq_prime_iff_of_mod_four_eq_one g1 (by omega)]
      exact h
    · rw [ZMod.exists_sq_eq_prime_iff_of_mod_four_eq_three h3 g3 (by omega), ZMod.exists_sq_eq_prime_iff_of_mod_four_eq_three (h4 ▸ h3) g3 (by omega)] at h
      exact not_iff_not.mp h

/-- What the branches tell about a prime `p` that `p'` shares: the number of zero bits at the end of `p - 1`, which of the 1000 smallest primes are squares modulo `p`, and modulo which of
them (except 2) `p` is a square. -/
structure SharedSecrets (p p' : Nat) : Prop where
  twos : ∀ k, 2 ^ k ∣ p - 1 ↔ 2 ^ k ∣ p' - 1
  square : ∀ a : Nat, a.Prime → a < 7920 → (IsSquare (a : ZMod p) ↔ IsSquare (a : ZMod p'))
  inverse : ∀ a : Nat, a.Prime → a < 7920 → a ≠ 2 → (IsSquare (p : ZMod a) ↔ IsSquare (p' : ZMod a))

theorem shared_of_told {v : Obs → Option Obs} {num num' : List U32} (hp : (value num).Prime) (hp' : (value num').Prime) (h7 : 7920 ≤ value num)
    (t : Told v num num' true true) : SharedSecrets (value num) (value num') := by
  have h7' : 7920 ≤ value num' := by
    rcases Nat.lt_or_ge (value num') 7920 with h | h
    · exact absurd (t.small.mpr h) (by omega)
    · exact h
  have o := hp.eq_two_or_odd
  have o' := hp'.eq_two_or_odd
  obtain ⟨r, d, he, hd⟩ := exists_odd_part (value num - 1) (by omega)
  obtain ⟨r', d', he', hd'⟩ := exists_odd_part (value num' - 1) (by omega)
  obtain ⟨rfl, ho⟩ := t.order h7 (by omega) r r' d d' he he' hd hd'
  obtain ⟨r, rfl⟩ : ∃ q, r = q + 1 := by
    refine ⟨r - 1, ?_⟩
    rcases Nat.eq_zero_or_pos r with rfl | h
    · rw [pow_zero, one_mul] at he; omega
    · omega
  have tw : ∀ k, 2 ^ k ∣ value num - 1 ↔ 2 ^ k ∣ value num' - 1 := by
    have key : ∀ (k d : Nat), d % 2 = 1 → (2 ^ k ∣ 2 ^ (r + 1) * d ↔ k ≤ r + 1) := by
      intro k d hd
      constructor
      · intro h
        have c : Nat.Coprime (2 ^ k) d := Nat.Coprime.pow_left _ (Nat.coprime_two_left.mpr (Nat.odd_iff.mpr hd))
        exact (Nat.pow_dvd_pow_iff_le_right (by decide)).mp (c.dvd_of_dvd_mul_right h)
      · exact fun h => Dvd.dvd.mul_right (pow_dvd_pow 2 h) d
    intro k
    rw [he, he', key k d hd, key k d' hd']
  have sq : ∀ a : Nat, a.Prime → a < 7920 → (IsSquare (a : ZMod (value num)) ↔ IsSquare (a : ZMod (value num'))) := by
    intro a ha hlt
    rw [square_iff hp h7 ha hlt he, square_iff hp' h7' ha hlt he']
    exact not_iff_not.mpr ((ho rfl a ((table_iff hlt).mpr ha)).2 r (by omega))
  refine ⟨tw, sq, fun a ha hlt ha2 => reciprocal hp hp' ha h7 h7' hlt ha2 ?_ (sq a ha hlt)⟩
  have := tw 2
  omega

/-- C131: two primes that `random_prime` found with the same branches and addresses share all these secrets. -/
theorem C131_partial (w : Nat) (hw : 0 < w) (strict : Bool) (fuel fuel' : Nat) (s s' : RandState) (p p' : List U32 × RandState)
    (hs : s.testValues.length = s'.testValues.length) (h : randomPrime (32 * w) strict fuel s = .ok (some p)) (h' : randomPrime (32 * w) strict fuel' s' = .ok (some p'))
    (hp : (value p.1).Prime) (hp' : (value p'.1).Prime)
    (e : hard (randomPrimeL (32 * w) strict fuel s).trace = hard (randomPrimeL (32 * w) strict fuel' s').trace) : SharedSecrets (value p.1) (value p'.1) := by
  have t := told_random view_hard w hw strict fuel fuel' s s' p p' hs h h' (by rw [filterMap_hard, filterMap_hard, e])
  obtain ⟨r, e1, hr⟩ := C42_random_prime w hw strict fuel s
  obtain rfl := Except.ok.inj (h.symm.trans e1)
  obtain ⟨-, ho, h1, -⟩ := hr p.1 p.2 rfl
  have h31 : 2 ^ 31 ≤ 2 ^ (32 * w - 1) := Nat.pow_le_pow_right (by decide) (by omega)
  exact shared_of_told hp hp' (by omega) t

/-- C131: for the test of two primes that are 3 modulo 4 and have as many leading words that are 0, it is exact: the branches and addresses are the same if and only if the same of the 1000
smallest primes are squares modulo them. -/
theorem C131_exact_partial (w : Nat) (hw : 0 < w) (num num' : List U32) (hl : num.length = w) (hl' : num'.length = w) (hp : (value num).Prime) (hp' : (value num').Prime)
    (h7 : 7920 ≤ value num) (h7' : 7920 ≤ value num') (h3 : value num % 4 = 3) (h3' : value num' % 4 = 3) (hz : zeros num.reverse = zeros num'.reverse) :
    hard (mrPrimeL (32 * w) num).trace = hard (mrPrimeL (32 * w) num').trace ↔ ∀ a : Nat, a.Prime → a < 7920 → (IsSquare (a : ZMod (value num)) ↔ IsSquare (a : ZMod (value num'))) := by
  constructor
  · intro e
    have t := (sync_mrPrime view_hard hw hl hl').trace (by rw [filterMap_hard, filterMap_hard, e]) (by rw [res_mrPrime, C40_primes_pass w hw num hl hp])
      (by rw [res_mrPrime, C40_primes_pass w hw num' hl' hp'])
    exact (shared_of_told hp hp' h7 t).square
  · intro h
    have key : ∀ n : Nat, n % 4 = 3 → n - 1 = 2 ^ (0 + 1) * (n / 2) ∧ n / 2 % 2 = 1 := fun n hn => ⟨by omega, by omega⟩
    obtain ⟨k1, k2⟩ := key _ h3
    obtain ⟨k1', k2'⟩ := key _ h3'
    have one : ∀ {n a : Nat}, n.Prime → 7920 ≤ n → a.Prime → a < 7920 → ((a : ZMod n) ^ (n / 2) = 1 ↔ IsSquare (a : ZMod n)) := by
      intro n a hn hn7 ha hlt
      have : Fact n.Prime := ⟨hn⟩
      rw [ZMod.euler_criterion n]
      rw [Ne, ZMod.natCast_eq_zero_iff]
      exact fun h => absurd (Nat.le_of_dvd ha.pos h) (by omega)
    have s := same_mrPrime hw hl hl' h7 h7' (by omega) (by omega) k1 k1' k2 k2' hz fun a ha => by
      have hlt := table_lt ha
      have hpa := (table_iff hlt).mp ha
      refine ⟨by rw [one hp h7 hpa hlt, one hp' h7' hpa hlt]; exact h a hpa hlt, fun t ht => ?_⟩
      obtain rfl : t = 0 := by omega
      exact not_iff_not.mp (by rw [← square_iff hp h7 hpa hlt k1, ← square_iff hp' h7' hpa hlt k1']; exact h a hpa hlt)
    rw [← hard_blank, s.1, hard_blank]

/-- A case that meets the hypotheses of `C131_exact_partial`. -/
example := C131_exact_partial 1 (by decide) [7927#32] [7951#32] rfl rfl (by change Nat.Prime 7927; norm_num) (by change Nat.Prime 7951; norm_num) (by decide) (by decide) (by decide) (by decide) (by decide)

/-- C131 is false: 2147484042 is not divisible by 4, 2147483712 is. -/
theorem C131_false : ¬ C131_claim := by
  intro h
  have hc := h 1 (by decide) false 1 ⟨[2147484043#64], 0#64⟩ ⟨[2147483713#64], 0#64⟩ _ _ rfl random_2147484043 random_2147483713
  have v1 : value [2147484043#32] = 2147484043 := by rw [value_one]; rfl
  have v2 : value [2147483713#32] = 2147483713 := by rw [value_one]; rfl
  have := C131_partial 1 (by decide) false 1 1 ⟨[2147484043#64], 0#64⟩ ⟨[2147483713#64], 0#64⟩ _ _ rfl random_2147484043 random_2147483713
    (by rw [v1]; exact prime_2147484043) (by rw [v2]; exact prime_2147483713) hc
  have t := this.twos 2
  rw [v1, v2] at t
  exact absurd (t.mpr (by norm_num)) (by norm_num)

/-- Two primes that are 3 modulo 4. -/
example : (value [7927#32]).Prime ∧ value [7927#32] % 4 = 3 ∧ (value [7951#32]).Prime ∧ value [7951#32] % 4 = 3 ∧ zeros [7927#32].reverse = zeros [7951#32].reverse := by
  rw [value_one, value_one, BitVec.toNat_ofNat, BitVec.toNat_ofNat]
  exact ⟨by norm_num, by norm_num, by norm_num, by norm_num, by decide⟩

end Verif.Props
