import Verif.Props.RandomState
import Verif.Props.X25519
import Verif.Proof.Simd
import Mathlib.Data.Set.Card

/-! Property C107: how many different secrets the library can make. -/

namespace Verif.Props
open Verif.Model Verif.Spec Verif.Proof

/-- The states a process can be in when it has drawn any number of values. -/
def reachable : Set RandState := {s | ∃ n, s = randAfter n randInit}

/-- The X25519 private keys that `random_private_key` can return in a process, whatever was drawn before. -/
def possibleKeys : Set (List U32) := {k | ∃ s ∈ reachable, ∃ s', ecRandomKey s = .ok (k, s')}

/-- C107, full claim: there are at least `2^128` private keys that can come out; about `2^251` would be right. -/
def C107_claim : Prop := 2 ^ 128 ≤ possibleKeys.encard

theorem randAfter_add (a b : Nat) (s : RandState) : randAfter (a + b) s = randAfter b (randAfter a s) := by
  induction b with
  | zero => rfl
  | succ b ih => rw [← Nat.add_assoc, randAfter, ih, randAfter]

theorem randAfter_mod (n : Nat) (c : U64) : randAfter n ⟨[], c⟩ = randAfter (n % 2 ^ 63) ⟨[], c⟩ := by
  conv_lhs => rw [← Nat.div_add_mod n (2 ^ 63)]
  rw [randAfter_add, (C44_period (2 ^ 63 * (n / 2 ^ 63)) c).mpr (Nat.dvd_mul_right _ _)]

theorem randAfter_inj {i j : Nat} (c : U64) (hi : i < 2 ^ 63) (hj : j < 2 ^ 63) (h : randAfter i ⟨[], c⟩ = randAfter j ⟨[], c⟩) : i = j := by
  rcases Nat.lt_trichotomy i j with hlt | he | hlt
  · exact absurd h (C44_distinct i j c hlt hj)
  · exact he
  · exact absurd h.symm (C44_distinct j i c hlt hi)

theorem reachable_eq : reachable = (fun n => randAfter n randInit) '' Set.Iio (2 ^ 63) := by
  ext s
  constructor
  · rintro ⟨n, rfl⟩
    exact ⟨n % 2 ^ 63, Nat.mod_lt _ (by decide), (randAfter_mod n _).symm⟩
  · rintro ⟨n, _, rfl⟩
    exact ⟨n, rfl⟩

/-- Exactly `2^63` states can be reached, half of the `2^64` values of the state variable. -/
theorem C107_states_partial : reachable.encard = 2 ^ 63 := by
  have inj : Set.InjOn (fun n => randAfter n randInit) (Set.Iio (2 ^ 63)) := fun i hi j hj h => randAfter_inj _ hi hj h
  rw [reachable_eq, inj.encard_image, Set.encard_eq_coe_toFinset_card, Set.toFinset_Iio, Nat.card_Iio]
  rfl

theorem reachable_tests {s : RandState} (h : s ∈ reachable) : s = ⟨[], s.cval⟩ := by
  obtain ⟨n, rfl⟩ := h
  rw [show randInit = ⟨[], 0xa9782365ba09625b#64⟩ from rfl, randAfter_eq]

/-- The number made of four consecutive values. -/
theorem bnRandom_value (s : RandState) : value (bnRandom 256 s).1 = (randValue s).1.toNat + 2 ^ 64 * ((randValue (randAfter 1 s)).1.toNat +
    2 ^ 64 * ((randValue (randAfter 2 s)).1.toNat + 2 ^ 64 * (randValue (randAfter 3 s)).1.toNat)) := by
  have h : (bnRandom 256 s).1 = splitValue 32 2 8 (randValue s).1 ++ (splitValue 32 2 6 (randValue (randAfter 1 s)).1 ++
      (splitValue 32 2 4 (randValue (randAfter 2 s)).1 ++ (splitValue 32 2 2 (randValue (randAfter 3 s)).1 ++ []))) := by
    rw [bnRandom, genRandom32, show bnN 256 = 8 from rfl]
    rw [genRandomB, dif_neg (by decide)]
    dsimp only
    rw [genRandomB, dif_neg (by decide)]
    dsimp only
    rw [genRandomB, dif_neg (by decide)]
    dsimp only
    rw [genRandomB, dif_neg (by decide)]
    dsimp only
    rw [genRandomB, dif_pos (by decide)]
    rfl
  have sp : ∀ (l : Nat) (v : U64) (r : List U32), 2 ≤ l → value (splitValue 32 2 l v ++ r) = v.toNat + 2 ^ 64 * value r := by
    intro l v r hl
    obtain ⟨l, rfl⟩ : ∃ t, l = t + 2 := ⟨l - 2, by omega⟩
    have := v.isLt
    simp only [splitValue, List.cons_append, List.nil_append, value, BitVec.toNat_setWidth, BitVec.toNat_ushiftRight, Nat.shiftRight_eq_div_pow]
    omega
  rw [h, sp _ _ _ (by decide), sp _ _ _ (by decide), sp _ _ _ (by decide), sp _ _ _ (by decide), value]
  omega

/-- Different reachable states give different keys: clamping leaves the second and third value alone, and these determine the state. -/
theorem key_state {c c' : U64} {k : List U32} {s s' : RandState} (h : ecRandomKey ⟨[], c⟩ = .ok (k, s)) (h' : ecRandomKey ⟨[], c'⟩ = .ok (k, s')) :
    randAfter 3 ⟨[], c⟩ = randAfter 3 ⟨[], c'⟩ := by
  obtain ⟨k1, e1, _, _, _, _, b1, _⟩ := C85_random_key ⟨[], c⟩
  obtain ⟨k2, e2, _, _, _, _, b2, _⟩ := C85_random_key ⟨[], c'⟩
  obtain rfl : k1 = k := congrArg Prod.fst (Except.ok.inj (e1.symm.trans h))
  obtain rfl : k2 = k1 := congrArg Prod.fst (Except.ok.inj (e2.symm.trans h'))
  have hv : value (bnRandom 256 ⟨[], c⟩).1 / 2 ^ 64 % 2 ^ 128 = value (bnRandom 256 ⟨[], c'⟩).1 / 2 ^ 64 % 2 ^ 128 := by
    apply Nat.eq_of_testBit_eq
    intro i
    rw [Nat.testBit_mod_two_pow, Nat.testBit_mod_two_pow, Nat.testBit_div_two_pow, Nat.testBit_div_two_pow]
    by_cases hi : i < 128
    · rw [← b1 (i + 64) (by omega) (by omega), ← b2 (i + 64) (by omega) (by omega)]
    · simp [hi]
  rw [bnRandom_value, bnRandom_value] at hv
  have p1 := (randValue ⟨[], c⟩).1.isLt
  have p2 := (randValue (randAfter 1 ⟨[], c⟩)).1.isLt
  have p3 := (randValue (randAfter 2 ⟨[], c⟩)).1.isLt
  have q1 := (randValue ⟨[], c'⟩).1.isLt
  have q2 := (randValue (randAfter 1 ⟨[], c'⟩)).1.isLt
  have q3 := (randValue (randAfter 2 ⟨[], c'⟩)).1.isLt
  have o := observe_spec (lcgStep (lcgStep c))
  have o' := observe_spec (lcgStep (lcgStep c'))
  change randAfter 3 ⟨[], c⟩ = ⟨[], observe (randValue (randAfter 1 ⟨[], c⟩)).1.toNat (randValue (randAfter 2 ⟨[], c⟩)).1.toNat⟩ at o
  change randAfter 3 ⟨[], c'⟩ = ⟨[], observe (randValue (randAfter 1 ⟨[], c'⟩)).1.toNat (randValue (randAfter 2 ⟨[], c'⟩)).1.toNat⟩ at o'
  rw [o, o']
  have h2 : (randValue (randAfter 1 ⟨[], c⟩)).1.toNat = (randValue (randAfter 1 ⟨[], c'⟩)).1.toNat := by omega
  have h3 : (randValue (randAfter 2 ⟨[], c⟩)).1.toNat = (randValue (randAfter 2 ⟨[], c'⟩)).1.toNat := by omega
  rw [h2, h3]

theorem randAfter_cancel (c c' : U64) (h : randAfter 3 ⟨[], c⟩ = randAfter 3 ⟨[], c'⟩) : (⟨[], c⟩ : RandState) = ⟨[], c'⟩ := by
  rw [← (C44_period (2 ^ 63) c).mpr (Nat.dvd_refl _), ← (C44_period (2 ^ 63) c').mpr (Nat.dvd_refl _), show 2 ^ 63 = 3 + 9223372036854775805 from rfl, randAfter_add, h, ← randAfter_add]

/-- The key drawn in a state; the default is never used (`C85_random_key`). -/
def keyAt (s : RandState) : List U32 := match ecRandomKey s with
  | .ok r => r.1
  | .error _ => []

theorem keyAt_spec (s : RandState) : ∃ s', ecRandomKey s = .ok (keyAt s, s') := by
  obtain ⟨k, e, _⟩ := C85_random_key s
  exact ⟨_, by rw [keyAt, e]⟩

/-- C107, what is true: exactly `2^63` different private keys can come out. -/
theorem C107_partial : possibleKeys.encard = 2 ^ 63 := by
  have hi : possibleKeys = keyAt '' reachable := by
    ext k
    constructor
    · rintro ⟨s, hs, s', h⟩
      exact ⟨s, hs, by rw [keyAt, h]⟩
    · rintro ⟨s, hs, rfl⟩
      exact ⟨s, hs, keyAt_spec s⟩
  have inj : Set.InjOn keyAt reachable := by
    intro s hs t ht h
    rw [reachable_tests hs, reachable_tests ht] at h ⊢
    obtain ⟨s', e⟩ := keyAt_spec ⟨[], s.cval⟩
    obtain ⟨t', e'⟩ := keyAt_spec ⟨[], t.cval⟩
    rw [← h] at e'
    exact randAfter_cancel _ _ (key_state e e')
  rw [hi, inj.encard_image, C107_states_partial]

/-- C107 fails. -/
theorem C107_false : ¬ C107_claim := by
  rw [C107_claim, C107_partial]
  norm_num

/-- The set is not empty: the first key of a process is in it. -/
example : keyAt randInit ∈ possibleKeys := ⟨randInit, ⟨0, rfl⟩, keyAt_spec _⟩

/-! The primes of `random_prime` -/

/-- The primes that `random_prime<K, strict>` can return in a process. -/
def possiblePrimes (K : Nat) (strict : Bool) : Set (List U32) := {p | ∃ s ∈ reachable, ∃ fuel s', randomPrime K strict fuel s = .ok (some (p, s'))}

theorem randomPrime_more (K : Nat) (strict : Bool) (r : List U32 × RandState) : ∀ (f g : Nat) (s : RandState), f ≤ g → randomPrime K strict f s = .ok (some r) →
    randomPrime K strict g s = .ok (some r)
  | 0, _, _, _, h => nomatch h
  | f + 1, 0, _, hg, _ => absurd hg (by omega)
  | f + 1, g + 1, s, hg, h => by
    rw [randomPrime] at h ⊢
    cases hc : primeCandidate K strict s with
    | error e => rw [hc] at h; exact nomatch h
    | ok c =>
      obtain ⟨c, s2⟩ := c
      rw [hc, ok_bind] at h
      rw [ok_bind]
      dsimp only at h ⊢
      cases hm : mrPrime K c with
      | error e => rw [hm] at h; exact nomatch h
      | ok b =>
        rw [hm, ok_bind] at h
        rw [ok_bind]
        cases b
        · exact randomPrime_more K strict r f g s2 (by omega) h
        · exact h

/-- C107: for every key size, at most `2^63` different primes can come out of `random_prime`. -/
theorem C107_primes_partial (K : Nat) (strict : Bool) : (possiblePrimes K strict).encard ≤ 2 ^ 63 := by
  classical
  let f : RandState → List U32 := fun s => if h : ∃ p fuel s', randomPrime K strict fuel s = .ok (some (p, s')) then h.choose else []
  have hf : possiblePrimes K strict ⊆ f '' reachable := by
    rintro p ⟨s, hs, fuel, s', e⟩
    refine ⟨s, hs, ?_⟩
    have h : ∃ p fuel s', randomPrime K strict fuel s = .ok (some (p, s')) := ⟨p, fuel, s', e⟩
    obtain ⟨fuel2, s2, e2⟩ := h.choose_spec
    have g1 := randomPrime_more K strict _ fuel (max fuel fuel2) s (Nat.le_max_left _ _) e
    have g2 := randomPrime_more K strict _ fuel2 (max fuel fuel2) s (Nat.le_max_right _ _) e2
    rw [g1] at g2
    have := congrArg Prod.fst (Option.some.inj (Except.ok.inj g2))
    dsimp only [f]
    rw [dif_pos h]
    exact this.symm
  calc (possiblePrimes K strict).encard ≤ (f '' reachable).encard := Set.encard_le_encard hf
    _ ≤ reachable.encard := Set.encard_image_le _ _
    _ = 2 ^ 63 := C107_states_partial

end Verif.Props
