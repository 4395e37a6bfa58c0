import Verif.Props.Prime
import Verif.Proof.LcgReach
import Verif.Proof.LucasTree

/-! Property C137: `random_prime` comes to an end. -/

namespace Verif.Props
open Verif.Model Verif.Proof Verif.Spec

/-- `random_prime` returns when started in the state `s`. -/
def Returns (w : Nat) (strict : Bool) (s : RandState) : Prop := ∃ fuel r, randomPrime (32 * w) strict fuel s = .ok (some r)

/-- C137, full claim: `random_prime` returns for every width and in every state of the generator. -/
def C137_claim : Prop := ∀ (w : Nat) (strict : Bool) (s : RandState), 0 < w → Returns w strict s

theorem genRandom64_state : ∀ (n : Nat) (c : U64), (genRandom64 n ⟨[], c⟩).2 = ⟨[], lcgIter (2 * n) c⟩
  | 0, _ => rfl
  | n + 1, c => by
    have e : randValue ⟨[], c⟩ = ((randValue ⟨[], c⟩).1, ⟨[], lcgIter 2 c⟩) := rfl
    rw [genRandom64, e]
    dsimp only
    rw [genRandom64_state n, ← lcgIter_add, show 2 + 2 * n = 2 * (n + 1) by omega]

theorem candidate_state (w : Nat) (strict : Bool) (s : RandState) {c : List U32} {s' : RandState} (h : primeCandidate (32 * w) strict s = .ok (c, s')) :
    s' = (genRandom32 w s).2 := by
  rw [primeCandidate, bnRandom, bnN_mul32] at h
  generalize genRandom32 w s = p at *
  obtain ⟨c0, s0⟩ := p
  dsimp only at h
  have inv : ∀ {α β : Type} {x : Out α} {f : α → Out β} {b : β}, (x >>= f) = .ok b → ∃ a, f a = .ok b := by
    intro α β x f b h
    cases x with
    | error e => exact nomatch h
    | ok a => exact ⟨a, h⟩
  obtain ⟨c1, h⟩ := inv h
  obtain ⟨c2, h⟩ := inv h
  obtain ⟨c3, h⟩ : ∃ a, (pure (a, s0) : Out (List U32 × RandState)) = .ok (c, s') := by
    split at h
    · exact inv h
    · exact ⟨c2, h⟩
  exact (Prod.mk.inj (Except.ok.inj h)).2.symm

/-- Steps of the generator in one round of `random_prime`. -/
def roundSteps (w : Nat) : Nat := 2 * ((w + 1) / 2)

theorem candidate_lcg (w : Nat) (hw : 0 < w) (strict : Bool) (c : U64) :
    ∃ cand, primeCandidate (32 * w) strict ⟨[], c⟩ = .ok (cand, ⟨[], lcgIter (roundSteps w) c⟩) ∧ cand.length = w := by
  obtain ⟨cand, s', e, l, -⟩ := candidate_spec w hw strict ⟨[], c⟩
  refine ⟨cand, ?_, l⟩
  rw [e, candidate_state w strict _ e, (C43_stream w ⟨[], c⟩).2.2.2.2.2.2.2, genRandom64_state, roundSteps]

/-- The candidate drawn in the state `t` is accepted. -/
def Accepts (w : Nat) (strict : Bool) (t : U64) : Prop :=
  ∃ cand s', primeCandidate (32 * w) strict ⟨[], t⟩ = .ok (cand, s') ∧ mrPrime (32 * w) cand = .ok true

theorem returns_step (w : Nat) (hw : 0 < w) (strict : Bool) (s : RandState) {c s'} (h : primeCandidate (32 * w) strict s = .ok (c, s')) (hr : Returns w strict s') :
    Returns w strict s := by
  obtain ⟨fuel, r, hr⟩ := hr
  have hl : c.length = w := by
    obtain ⟨c', s'', e, l, -⟩ := candidate_spec w hw strict s
    rw [h] at e
    rw [(Prod.mk.inj (Except.ok.inj e)).1]; exact l
  obtain ⟨b, e, -⟩ := mrPrime_spec w hw c hl
  cases b with
  | true => exact ⟨1, (c, s'), by rw [randomPrime, h, loop_ok_bind]; dsimp only; rw [e, loop_ok_bind, if_pos rfl]; rfl⟩
  | false => exact ⟨fuel + 1, r, by rw [randomPrime, h, loop_ok_bind]; dsimp only; rw [e, loop_ok_bind, if_neg (by decide)]; exact hr⟩

/-- C137 for all widths: from a state without test values `random_prime` returns exactly if some candidate is accepted that is drawn in a state that agrees
with this one in the low bits, as many as 2 divides the number of steps in a round. -/
theorem C137_iff (w : Nat) (hw : 0 < w) (strict : Bool) (c : U64) :
    Returns w strict ⟨[], c⟩ ↔ ∃ t : U64, t.toNat % Nat.gcd (roundSteps w) (2 ^ 64) = c.toNat % Nat.gcd (roundSteps w) (2 ^ 64) ∧ Accepts w strict t := by
  constructor
  · rintro ⟨fuel, r, h⟩
    induction fuel generalizing c with
    | zero => exact nomatch h
    | succ fuel ih =>
      obtain ⟨cand, e, l⟩ := candidate_lcg w hw strict c
      obtain ⟨b, eb, -⟩ := mrPrime_spec w hw cand l
      rw [randomPrime, e, loop_ok_bind] at h
      dsimp only at h
      rw [eb, loop_ok_bind] at h
      cases b with
      | true => exact ⟨c, rfl, cand, _, e, eb⟩
      | false =>
        rw [if_neg (by decide)] at h
        obtain ⟨t, ht, ha⟩ := ih _ h
        refine ⟨t, ht.trans ?_, ha⟩
        exact (lcg_reach_mul (roundSteps w) c _).mp ⟨1, by rw [Nat.one_mul]⟩
  · rintro ⟨t, ht, ha⟩
    obtain ⟨j, rfl⟩ := (lcg_reach_mul (roundSteps w) c t).mpr ht
    clear ht
    induction j generalizing c with
    | zero =>
      rw [Nat.zero_mul] at ha
      obtain ⟨cand, s', e, hm⟩ := ha
      refine ⟨1, (cand, s'), ?_⟩
      change randomPrime (32 * w) strict (0 + 1) ⟨[], c⟩ = _
      rw [randomPrime]
      rw [show primeCandidate (32 * w) strict ⟨[], c⟩ = .ok (cand, s') from e, loop_ok_bind]
      dsimp only
      rw [hm, loop_ok_bind, if_pos rfl]; rfl
    | succ j ih =>
      obtain ⟨cand, e, l⟩ := candidate_lcg w hw strict c
      refine returns_step w hw strict _ e (ih _ ?_)
      rw [← lcgIter_add, show roundSteps w + j * roundSteps w = (j + 1) * roundSteps w by ring]
      exact ha

theorem randValue_testValues (s : RandState) (h : s.testValues ≠ []) : (randValue s).2.testValues.length + 1 = s.testValues.length := by
  obtain ⟨v, hv⟩ : ∃ v, s.testValues.getLast? = some v := by
    rw [← Option.isSome_iff_exists, List.getLast?_isSome]; exact h
  rw [randValue, hv]
  dsimp only
  rw [List.length_dropLast]
  have := List.length_pos_iff.mpr h
  omega

theorem randValue_testValues_le (s : RandState) : (randValue s).2.testValues.length ≤ s.testValues.length := by
  by_cases h : s.testValues = []
  · rw [randValue, h]; exact le_refl _
  · have := randValue_testValues s h; omega

theorem genRandomB_testValues_le (b per : Nat) : ∀ (n left : Nat) (s : RandState), left ≤ n → (genRandomB b per left s).2.testValues.length ≤ s.testValues.length
  | 0, left, s, h => by rw [genRandomB, dif_pos (by omega)]
  | n + 1, left, s, h => by
    rw [genRandomB]
    split
    · exact le_refl _
    · next hc =>
      exact (genRandomB_testValues_le b per n (left - per) _ (by omega)).trans (randValue_testValues_le s)

theorem genRandom32_testValues (w : Nat) (hw : 0 < w) (s : RandState) (h : s.testValues ≠ []) : (genRandom32 w s).2.testValues.length < s.testValues.length := by
  rw [genRandom32, genRandomB, dif_neg (by omega)]
  have h1 := genRandomB_testValues_le 32 2 _ (w - 2) (randValue s).2 (le_refl _)
  have h2 := randValue_testValues s h
  exact lt_of_le_of_lt h1 (by omega)

/-- If in every class of states some candidate is accepted then `random_prime` returns in all states, with test values or without. -/
theorem returns_of_accepts (w : Nat) (hw : 0 < w) (strict : Bool) (d : Nat) (hd : Nat.gcd (roundSteps w) (2 ^ 64) = d)
    (hall : ∀ i < d, ∃ t : U64, t.toNat % d = i ∧ Accepts w strict t) : ∀ s, Returns w strict s := by
  have base : ∀ c, Returns w strict ⟨[], c⟩ := by
    intro c
    rw [C137_iff w hw strict c, hd]
    have hpos : 0 < d := by
      rw [← hd]; exact Nat.gcd_pos_of_pos_right _ (by norm_num)
    obtain ⟨t, h1, h2⟩ := hall (c.toNat % d) (Nat.mod_lt _ hpos)
    exact ⟨t, h1, h2⟩
  have step : ∀ (n : Nat) (s : RandState), s.testValues.length ≤ n → Returns w strict s := by
    intro n
    induction n with
    | zero =>
      intro s h
      obtain ⟨tv, c⟩ := s
      obtain rfl : tv = [] := List.length_eq_zero_iff.mp (by simpa using h)
      exact base c
    | succ n ih =>
      intro s h
      by_cases h0 : s.testValues = []
      · obtain ⟨tv, c⟩ := s
        obtain rfl : tv = [] := h0
        exact base c
      · obtain ⟨c, s', e, -⟩ := candidate_spec w hw strict s
        refine returns_step w hw strict s e (ih s' ?_)
        rw [candidate_state w strict s e]
        have := genRandom32_testValues w hw s h0
        omega
  exact fun s => step _ s (le_refl _)

/-- The words drawn in the state `c`. -/
def lcgWords : Nat → U64 → List U32
  | 0, _ => []
  | 1, c => [(randValue ⟨[], c⟩).1.setWidth 32]
  | n + 2, c => (randValue ⟨[], c⟩).1.setWidth 32 :: ((randValue ⟨[], c⟩).1 >>> 32).setWidth 32 :: lcgWords n (lcgIter 2 c)

theorem genRandom32_words : ∀ (n : Nat) (c : U64), (genRandom32 n ⟨[], c⟩).1 = lcgWords n c
  | 0, c => by rw [genRandom32, genRandomB, dif_pos (by omega), lcgWords]
  | 1, c => by
    rw [genRandom32, genRandomB, dif_neg (by omega)]
    dsimp only
    rw [genRandomB, dif_pos (by omega)]
    rfl
  | n + 2, c => by
    have e : randValue ⟨[], c⟩ = ((randValue ⟨[], c⟩).1, ⟨[], lcgIter 2 c⟩) := rfl
    have ih := genRandom32_words n (lcgIter 2 c)
    rw [genRandom32] at ih ⊢
    rw [genRandomB, dif_neg (by omega), e]
    dsimp only
    rw [show n + 2 - 2 = n by omega, ih]
    rfl

/-- `p` is prime if a number has the order `q` modulo `p` for a prime `q` that is not below the root of `p`. -/
theorem prime_leaf (p q h : Nat) (hq : q.Prime) (hc : (decide (1 < p) && decide (p ≤ q * q) && (PTree.leaf q).check p h) = true) : p.Prime := by
  simp only [Bool.and_eq_true, decide_eq_true_eq] at hc
  refine pocklington p h q (.leaf q) (fun r hr => ?_) rfl hc.1.1 hc.1.2 hc.2
  rw [PTree.list, List.mem_singleton] at hr
  rw [hr]; exact hq

/-- The words with the lowest and the highest two bits set. -/
theorem accepts_of (w : Nat) (hw : 0 < w) (t : U64) (num : List U32) (hl : (num.length.beq w) = true)
    (hb : ((do let c ← bnSetBit (lcgWords w t) 0; bnSetBit c (32 * w - 1) : Out (List U32)) = .ok num ∧ bnSetBit num (32 * w - 2) = .ok num))
    (p : (value num).Prime) (strict : Bool) : Accepts w strict t := by
  obtain ⟨hb, hb2⟩ := hb
  refine ⟨num, (genRandom32 w ⟨[], t⟩).2, ?_, C40_primes_pass w hw num (Nat.eq_of_beq_eq_true hl) p⟩
  rw [primeCandidate, bnRandom, bnN_mul32, ← genRandom32_words] at *
  generalize genRandom32 w ⟨[], t⟩ = q at *
  obtain ⟨c0, s0⟩ := q
  dsimp only at hb ⊢
  cases h0 : bnSetBit c0 0 with
  | error e => rw [h0] at hb; exact nomatch hb
  | ok c1 =>
    rw [h0, loop_ok_bind] at hb
    rw [loop_ok_bind, hb, loop_ok_bind]
    cases strict with
    | true => rw [if_pos rfl, if_neg (by omega), hb2]; rfl
    | false => rfl

end Verif.Props
