import Verif.Model.RandomSeed
import Verif.Props.Random
import Mathlib.Data.Finset.Card
import Mathlib.Tactic.IntervalCases
import Mathlib.Algebra.Order.BigOperators.Group.Finset

/-! C134: the generator of a build with `PLATFORM_HAS_RDSEED`. -/

namespace Verif.Props
open Verif.Model

/-- The multiplier maps differences below 2^32 to differences below 2^32 in one way only: the lattice of the multiplier has a basis of which
only one vector is that short. -/
theorem short_differences (d t : Int) (hd : -4294967296 < d ∧ d < 4294967296)
    (he : -4294967296 < 6364136223846793005 * d - 18446744073709551616 * t ∧ 6364136223846793005 * d - 18446744073709551616 * t < 4294967296) :
    d = 0 ∨ d = 2627121436 ∨ d = -2627121436 := by
  obtain ⟨a, ha⟩ : ∃ a, a = 799129460 * d - 2316313811 * t := ⟨_, rfl⟩
  obtain ⟨b, hb⟩ : ∃ b, b = 906358251 * d - 2627121436 * t := ⟨_, rfl⟩
  have e1 : d = -2627121436 * a + 2316313811 * b := by omega
  have e2 : t = -906358251 * a + 799129460 * b := by omega
  have e3 : 6364136223846793005 * d - 18446744073709551616 * t = 1381628436 * a + 5803484695 * b := by omega
  rw [e3] at he
  rw [e1] at hd ⊢
  clear e1 e2 e3 ha hb
  have b1 : -2 < b := by omega
  have b2 : b < 2 := by omega
  have a1 : -4 < a := by omega
  have a2 : a < 4 := by omega
  interval_cases b <;> interval_cases a <;> omega

theorem step_toNat (x : U64) : ∃ t : Nat, x.toNat * 6364136223846793005 + 1442695040888963407 = 18446744073709551616 * t + (lcgStep x).toNat := by
  have e : (lcgStep x).toNat = (x.toNat * 6364136223846793005 + 1442695040888963407) % 18446744073709551616 := by
    rw [lcgStep, BitVec.toNat_add, BitVec.toNat_mul, Nat.mod_add_mod]
    rfl
  exact ⟨_, by rw [e, Nat.div_add_mod]⟩

theorem near_nat (X Y P Q s t : Nat) (h1 : X / 4294967296 = Y / 4294967296) (h2 : P / 4294967296 = Q / 4294967296)
    (hp : X * 6364136223846793005 + 1442695040888963407 = 18446744073709551616 * s + P)
    (hq : Y * 6364136223846793005 + 1442695040888963407 = 18446744073709551616 * t + Q) :
    (X : Int) - Y = 0 ∨ (X : Int) - Y = 2627121436 ∨ (X : Int) - Y = -2627121436 := by
  have d1 : ((X : Int) - Y) < 4294967296 := by omega
  have d2 : -4294967296 < ((X : Int) - Y) := by omega
  have e1 : ((P : Int) - Q) < 4294967296 := by omega
  have e2 : -4294967296 < ((P : Int) - Q) := by omega
  have e : 6364136223846793005 * ((X : Int) - Y) - 18446744073709551616 * ((s : Int) - t) = (P : Int) - Q := by omega
  exact short_differences _ ((s : Int) - t) ⟨d2, d1⟩ ⟨by rw [e]; exact e2, by rw [e]; exact e1⟩

/-- Two states with equal upper halves, whose successors have equal upper halves. -/
theorem near (x y : U64) (h1 : x >>> 32 = y >>> 32) (h2 : lcgStep x >>> 32 = lcgStep y >>> 32) :
    (x.toNat : Int) - y.toNat = 0 ∨ (x.toNat : Int) - y.toNat = 2627121436 ∨ (x.toNat : Int) - y.toNat = -2627121436 := by
  have h1 := congrArg BitVec.toNat h1
  have h2 := congrArg BitVec.toNat h2
  rw [BitVec.toNat_ushiftRight, BitVec.toNat_ushiftRight, Nat.shiftRight_eq_div_pow, Nat.shiftRight_eq_div_pow] at h1 h2
  obtain ⟨s, hs⟩ := step_toNat x
  obtain ⟨t, ht⟩ := step_toNat y
  exact near_nat _ _ _ _ s t h1 h2 hs ht

/-- At most two states with the same upper half have successors with the same upper half. -/
theorem at_most_two (S : Finset U64) (p q : U64) (h : ∀ x ∈ S, x >>> 32 = p ∧ lcgStep x >>> 32 = q) : S.card ≤ 2 := by
  by_contra hc
  obtain ⟨x, y, z, hx, hy, hz, xy, xz, yz⟩ := Finset.two_lt_card_iff.1 (not_le.1 hc)
  have n1 := near x y (by rw [(h x hx).1, (h y hy).1]) (by rw [(h x hx).2, (h y hy).2])
  have n2 := near x z (by rw [(h x hx).1, (h z hz).1]) (by rw [(h x hx).2, (h z hz).2])
  have n3 := near y z (by rw [(h y hy).1, (h z hz).1]) (by rw [(h y hy).2, (h z hz).2])
  have d1 : x.toNat ≠ y.toNat := fun e => xy (BitVec.eq_of_toNat_eq e)
  have d2 : x.toNat ≠ z.toNat := fun e => xz (BitVec.eq_of_toNat_eq e)
  have d3 : y.toNat ≠ z.toNat := fun e => yz (BitVec.eq_of_toNat_eq e)
  omega

theorem low_mask (v : U64) : (v &&& 0xFFFFFFFF#64).toNat = v.toNat % 2 ^ 32 := by
  rw [BitVec.toNat_and]
  exact Nat.and_two_pow_sub_one_eq_mod v.toNat 32

theorem shift_small (a : U64) (h : a.toNat < 2 ^ 32) : a >>> 32 = 0#64 := by
  apply BitVec.eq_of_toNat_eq
  rw [BitVec.toNat_ushiftRight, Nat.shiftRight_eq_div_pow, Nat.div_eq_of_lt h]
  rfl

theorem high_small (v : U64) : (v >>> 32).toNat < 2 ^ 32 := by
  have := v.isLt
  rw [BitVec.toNat_ushiftRight, Nat.shiftRight_eq_div_pow]
  omega

theorem high_mask (v : U64) : v >>> 32 &&& 0xFFFFFFFF#64 = v >>> 32 := by
  apply BitVec.eq_of_toNat_eq
  rw [low_mask, Nat.mod_eq_of_lt (high_small v)]

theorem xor_small (c a : U64) (h : a.toNat < 2 ^ 32) : (c ^^^ a) >>> 32 = c >>> 32 := by
  rw [BitVec.ushiftRight_xor_distrib, shift_small a h, BitVec.xor_zero]

theorem upper_of_value (a b : U64) : ((a &&& 0xFFFFFFFF00000000#64) ||| ((b >>> 32) &&& 0xFFFFFFFF#64)) >>> 32 = a >>> 32 := by
  rw [BitVec.ushiftRight_or_distrib, BitVec.ushiftRight_and_distrib, high_mask b, shift_small _ (high_small b), BitVec.or_zero]
  exact high_mask a

theorem lower_of_value (a b : U64) : ((a &&& 0xFFFFFFFF00000000#64) ||| ((b >>> 32) &&& 0xFFFFFFFF#64)) &&& 0xFFFFFFFF#64 = b >>> 32 := by
  rw [BitVec.and_or_distrib_right, BitVec.and_assoc, BitVec.and_assoc, BitVec.and_self, high_mask b]
  have : 0xFFFFFFFF00000000#64 &&& 0xFFFFFFFF#64 = 0#64 := by decide
  rw [this, BitVec.and_zero, BitVec.zero_or]

theorem halves_determine (v w : U64) (h1 : v &&& 0xFFFFFFFF#64 = w &&& 0xFFFFFFFF#64) (h2 : v >>> 32 = w >>> 32) : v = w := by
  apply BitVec.eq_of_toNat_eq
  have h1 := congrArg BitVec.toNat h1
  have h2 := congrArg BitVec.toNat h2
  rw [low_mask, low_mask] at h1
  rw [BitVec.toNat_ushiftRight, BitVec.toNat_ushiftRight, Nat.shiftRight_eq_div_pow, Nat.shiftRight_eq_div_pow] at h2
  omega

/-- C134, one value: in every state every value is returned for at most four of the 2^64 hardware values. -/
theorem C134_value_partial (c w : U64) (S : Finset U64) (h : ∀ v ∈ S, (randValueSeeded v ⟨[], c⟩).1 = w) : S.card ≤ 4 := by
  have up : ∀ v ∈ S, lcgStep (c ^^^ (v &&& 0xFFFFFFFF#64)) >>> 32 = w >>> 32 := fun v hv => by
    rw [← h v hv]; exact (upper_of_value _ _).symm
  have lo : ∀ v ∈ S, lcgStep (lcgStep (c ^^^ (v &&& 0xFFFFFFFF#64)) ^^^ (v >>> 32)) >>> 32 = w &&& 0xFFFFFFFF#64 := fun v hv => by
    rw [← h v hv]; exact (lower_of_value _ _).symm
  have i2 : (S.image fun v => c ^^^ (v &&& 0xFFFFFFFF#64)).card ≤ 2 := by
    apply at_most_two _ (c >>> 32) (w >>> 32)
    intro x hx
    obtain ⟨v, hv, rfl⟩ := Finset.mem_image.1 hx
    exact ⟨xor_small _ _ (by rw [low_mask]; exact Nat.mod_lt _ (by decide)), up v hv⟩
  have f2 : ∀ x ∈ S.image (fun v => c ^^^ (v &&& 0xFFFFFFFF#64)), (S.filter fun v => c ^^^ (v &&& 0xFFFFFFFF#64) = x).card ≤ 2 := by
    intro x _
    have inj : Set.InjOn (fun v : U64 => lcgStep x ^^^ (v >>> 32)) (S.filter fun v => c ^^^ (v &&& 0xFFFFFFFF#64) = x) := by
      intro v hv v' hv' e
      have e1 := (Finset.mem_filter.1 hv).2.trans (Finset.mem_filter.1 hv').2.symm
      exact halves_determine v v' ((BitVec.xor_right_inj _).1 e1) ((BitVec.xor_right_inj _).1 e)
    rw [← Finset.card_image_of_injOn inj]
    apply at_most_two _ (lcgStep x >>> 32) (w &&& 0xFFFFFFFF#64)
    intro y hy
    obtain ⟨v, hv, rfl⟩ := Finset.mem_image.1 hy
    obtain ⟨hvS, hx⟩ := Finset.mem_filter.1 hv
    exact ⟨xor_small _ _ (high_small v), by rw [← hx]; exact lo v hvS⟩
  have := Finset.card_le_mul_card_image S 2 f2
  omega

theorem seeded_state (v c : U64) : ∃ c', (randValueSeeded v ⟨[], c⟩).2 = ⟨[], c'⟩ := ⟨_, rfl⟩

/-- C134, any number of values: every sequence of n values is returned for at most 4^n of the 2^(64 n) sequences of hardware values. -/
theorem C134_sequence_partial (c : U64) (ws : List U64) (S : Finset (List U64)) (h : ∀ vs ∈ S, (genRandomSeeded vs ⟨[], c⟩).1 = ws) :
    S.card ≤ 4 ^ ws.length := by
  induction ws generalizing c S with
  | nil =>
    refine Finset.card_le_one.2 fun a ha b hb => ?_
    have nil : ∀ vs ∈ S, vs = [] := fun vs hvs => by
      cases vs with
      | nil => rfl
      | cons v vs => exact absurd (h _ hvs) (by simp [genRandomSeeded])
    rw [nil a ha, nil b hb]
  | cons w ws ih =>
    have shape : ∀ vs ∈ S, ∃ v r, vs = v :: r ∧ (randValueSeeded v ⟨[], c⟩).1 = w ∧ (genRandomSeeded r (randValueSeeded v ⟨[], c⟩).2).1 = ws := fun vs hvs => by
      cases vs with
      | nil => exact absurd (h _ hvs) (by simp [genRandomSeeded])
      | cons v r => exact ⟨v, r, rfl, (List.cons.inj (h _ hvs)).1, (List.cons.inj (h _ hvs)).2⟩
    have i4 : (S.image fun vs => vs.headD 0#64).card ≤ 4 := by
      apply C134_value_partial c w
      intro v hv
      obtain ⟨vs, hvs, rfl⟩ := Finset.mem_image.1 hv
      obtain ⟨v, r, rfl, h1, _⟩ := shape vs hvs
      exact h1
    have fib : ∀ x ∈ S.image (fun vs => vs.headD 0#64), (S.filter fun vs => vs.headD 0#64 = x).card ≤ 4 ^ ws.length := by
      intro x _
      obtain ⟨c', hc'⟩ := seeded_state x c
      have inj : Set.InjOn (fun vs : List U64 => vs.tail) (S.filter fun vs => vs.headD 0#64 = x) := by
        intro a ha b hb e
        obtain ⟨ha, ha'⟩ := Finset.mem_filter.1 ha
        obtain ⟨hb, hb'⟩ := Finset.mem_filter.1 hb
        obtain ⟨v, r, rfl, _⟩ := shape a ha
        obtain ⟨v', r', rfl, _⟩ := shape b hb
        rw [show v = x from ha', show v' = x from hb', show r = r' from e]
      rw [← Finset.card_image_of_injOn inj]
      apply ih c'
      intro r hr
      obtain ⟨vs, hvs, rfl⟩ := Finset.mem_image.1 hr
      obtain ⟨hvs, hx⟩ := Finset.mem_filter.1 hvs
      obtain ⟨v, r, rfl, _, h2⟩ := shape vs hvs
      rw [show v = x from hx, hc'] at h2
      exact h2
    calc S.card ≤ 4 ^ ws.length * (S.image fun vs => vs.headD 0#64).card := Finset.card_le_mul_card_image S _ fib
      _ ≤ 4 ^ ws.length * 4 := Nat.mul_le_mul_left _ i4
      _ = 4 ^ (w :: ws).length := by rw [List.length_cons, pow_succ]

/-- C134: with a hardware value that takes every value equally often, every value is returned equally often. -/
def C134_claim : Prop := ∀ c w : U64, ∃! v : U64, (randValueSeeded v ⟨[], c⟩).1 = w

/-- The first call of a process, with four hardware values that give the same value: the bound of C134_value_partial is attained. -/
theorem four_alike : ∀ v ∈ [0xf0a60764ab3bbaa1#64, 0x5d0ff600ab3bbaa1#64, 0x2ef81d0817c0e84d#64, 0x8351ec6c17c0e84d#64],
    (randValueSeeded v randInit).1 = 0x26795ebf5ab82dba#64 := fun v hv => by
  have h : [0xf0a60764ab3bbaa1#64, 0x5d0ff600ab3bbaa1#64, 0x2ef81d0817c0e84d#64, 0x8351ec6c17c0e84d#64].map (fun v => (randValueSeeded v randInit).1) =
    List.replicate 4 0x26795ebf5ab82dba#64 := by decide +kernel
  have m := List.mem_map_of_mem (f := fun v => (randValueSeeded v randInit).1) hv
  rw [h] at m
  exact List.eq_of_mem_replicate m

/-- C134 as stated does not hold: in the first call of a process one value comes from four hardware values. -/
theorem C134_false : ¬ C134_claim := by
  intro h
  obtain ⟨v, _, hv⟩ := h randInit.cval 0x26795ebf5ab82dba#64
  have a := hv 0xf0a60764ab3bbaa1#64 (four_alike _ (by decide))
  have b := hv 0x5d0ff600ab3bbaa1#64 (four_alike _ (by decide))
  exact absurd (a.trans b.symm) (by decide)

/-- The hypotheses of C134_value_partial and C134_sequence_partial are met, with four hardware values. -/
example : ∀ v ∈ ({0xf0a60764ab3bbaa1#64, 0x5d0ff600ab3bbaa1#64, 0x2ef81d0817c0e84d#64, 0x8351ec6c17c0e84d#64} : Finset U64),
    (randValueSeeded v ⟨[], randInit.cval⟩).1 = 0x26795ebf5ab82dba#64 := fun v h => four_alike v (by simpa only [Finset.mem_insert, Finset.mem_singleton, List.mem_cons, List.not_mem_nil, or_false] using h)

example : ∀ vs ∈ ({[0xf0a60764ab3bbaa1#64], [0x5d0ff600ab3bbaa1#64]} : Finset (List U64)),
    (genRandomSeeded vs ⟨[], randInit.cval⟩).1 = [0x26795ebf5ab82dba#64] := fun vs h => by
  rcases Finset.mem_insert.1 h with rfl | h
  · exact congrArg (fun x => [x]) (four_alike _ (List.mem_cons_self ..))
  · rw [Finset.mem_singleton.1 h]
    exact congrArg (fun x => [x]) (four_alike _ (List.mem_cons_of_mem _ (List.mem_cons_self ..)))

/-- C134, failure of the instruction: when `rdseed` delivers nothing (it then stores 0) the generator continues without any entropy. -/
theorem C134_unavailable_partial (s : RandState) : randValueSeeded 0#64 s = randValue s := by
  have e1 : ∀ x : U64, x ^^^ (0#64 &&& 0xFFFFFFFF#64) = x := fun x => by rw [BitVec.zero_and, BitVec.xor_zero]
  have e2 : ∀ x : U64, x ^^^ (0#64 >>> 32) = x := fun x => by rw [BitVec.zero_ushiftRight, BitVec.xor_zero]
  unfold randValueSeeded randValue
  simp only [e1, e2]
  generalize lcgStep (lcgStep s.cval) = b
  generalize lcgStep s.cval = a
  cases s.testValues.getLast? with
  | none => rfl
  | some v => rfl

end Verif.Props
