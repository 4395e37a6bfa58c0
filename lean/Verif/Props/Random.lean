import Verif.Proof.Random
import Verif.Spec.Random
import Mathlib.Tactic.Ring
import Mathlib.Data.List.GetD
import Mathlib.Tactic.NormNum
import Mathlib.Data.ZMod.Basic
import Mathlib.Tactic.LinearCombination

/-! Properties C43 - C45: include/caligo/random.h. -/

namespace Verif.Props
open Verif.Model Verif.Proof Verif.Spec

/-! ### C43 -/

theorem octetsLE_length {b : Nat} (k : Nat) (v : BitVec b) : (octetsLE k v).length = k := by
  induction k generalizing v with
  | zero => rfl
  | succ k ih => rw [octetsLE, List.length_cons, ih]

theorem octetsLE_getD {b : Nat} (k : Nat) (v : BitVec b) (i : Nat) (hi : i < k) : (octetsLE k v).getD i 0#8 = BitVec.ofNat 8 (v.toNat / 256 ^ i) := by
  induction k generalizing v i with
  | zero => omega
  | succ k ih =>
    cases i with
    | zero => simp [octetsLE]
    | succ i =>
      rw [octetsLE, List.getD_cons_succ, ih _ _ (by omega), BitVec.toNat_ushiftRight, Nat.shiftRight_eq_div_pow, Nat.div_div_eq_div_mul, pow_succ' 256 i]

theorem octetsLE_add {b : Nat} (j k : Nat) (v : BitVec b) : octetsLE (j + k) v = octetsLE j v ++ octetsLE k (v >>> (8 * j)) := by
  induction j generalizing v with
  | zero => simp [octetsLE]
  | succ j ih =>
    rw [show j + 1 + k = (j + k) + 1 by omega, octetsLE, ih, octetsLE, List.cons_append]
    congr 3
    apply BitVec.eq_of_toNat_eq
    simp only [BitVec.toNat_ushiftRight, Nat.shiftRight_eq_div_pow, Nat.div_div_eq_div_mul]
    congr 1
    rw [← pow_add]; congr 1; omega

theorem octetsLE_setWidth (j : Nat) (v : U64) : octetsLE j (v.setWidth (8 * j)) = octetsLE j v := by
  apply List.ext_getElem (by simp [octetsLE_length])
  intro i h1 h2
  rw [octetsLE_length] at h1
  have a := octetsLE_getD j (v.setWidth (8 * j)) i h1
  have b := octetsLE_getD j v i h1
  rw [List.getD_eq_getElem _ _ (by rw [octetsLE_length]; exact h1)] at a b
  rw [a, b]
  apply BitVec.eq_of_toNat_eq
  rw [BitVec.toNat_ofNat, BitVec.toNat_ofNat, BitVec.toNat_setWidth]
  have e : 2 ^ (8 * j) = 256 ^ i * (256 * 256 ^ (j - i - 1)) := by
    rw [show (2 : Nat) ^ (8 * j) = 256 ^ j by rw [pow_mul]; norm_num, ← pow_succ', ← pow_add]; congr 1; omega
  rw [e, Nat.mod_mul_right_div_self, Nat.mod_mul_right_mod]

/-- one value split into elements of `j` octets -/
theorem splitValue_octets (j : Nat) : ∀ (per left : Nat) (v : U64),
    streamLE j (splitValue (8 * j) per left v) = (octetsLE (j * per) v).take (j * left)
  | 0, left, v => by simp [splitValue, streamLE, octetsLE]
  | per + 1, 0, v => by simp [splitValue, streamLE]
  | per + 1, left + 1, v => by
    rw [splitValue, streamLE, List.flatMap_cons, ← streamLE, splitValue_octets j per left, octetsLE_setWidth,
      show j * (per + 1) = j + j * per by ring, octetsLE_add, show j * (left + 1) = j + j * left by ring,
      List.take_append, octetsLE_length, List.take_of_length_le (l := octetsLE j v) (by rw [octetsLE_length]; omega), Nat.add_sub_cancel_left]

theorem genRandomB_octets (j per : Nat) (hj : 0 < j) (hp : j * per = 8) : ∀ (n : Nat) (left : Nat) (s : RandState), left ≤ n →
    streamLE j (genRandomB (8 * j) per left s).1 = (streamLE 8 (genRandom64 ((left + per - 1) / per) s).1).take (j * left) ∧
    (genRandomB (8 * j) per left s).2 = (genRandom64 ((left + per - 1) / per) s).2 := by
  have hper : 0 < per := by rcases Nat.eq_zero_or_pos per with rfl | h <;> omega
  intro n
  induction n with
  | zero =>
    intro left s h
    obtain rfl : left = 0 := by omega
    rw [genRandomB, dif_pos (by omega), Nat.div_eq_of_lt (by omega)]
    simp [genRandom64, streamLE]
  | succ n ih =>
    intro left s h
    by_cases h0 : left = 0
    · subst h0
      rw [genRandomB, dif_pos (by omega), Nat.div_eq_of_lt (by omega)]
      simp [genRandom64, streamLE]
    · have e : (left + per - 1) / per = (left - per + per - 1) / per + 1 := by
        rcases Nat.lt_or_ge left per with h1 | h1
        · rw [show left - per + per - 1 = per - 1 by omega, Nat.div_eq_of_lt (a := per - 1) (by omega),
            show left + per - 1 = (left - 1) + 1 * per by omega, Nat.add_mul_div_right _ _ hper, Nat.div_eq_of_lt (by omega)]
        · rw [show left + per - 1 = (left - per + per - 1) + 1 * per by omega, Nat.add_mul_div_right _ _ hper]
      rw [genRandomB, dif_neg (by omega), e, genRandom64]
      dsimp only
      obtain ⟨h1, h2⟩ := ih (left - per) (randValue s).2 (by omega)
      refine ⟨?_, h2⟩
      rw [streamLE, List.flatMap_append, ← streamLE, ← streamLE, splitValue_octets, h1, hp, streamLE, streamLE, List.flatMap_cons, List.take_append,
        octetsLE_length]
      congr 2
      rw [← hp, Nat.mul_sub]

/-- C43: all four overloads deliver the same little-endian byte stream, fill the whole span, and leave the generator in the same state. -/
theorem C43_stream (n : Nat) (s : RandState) :
    (genRandom8 n s).1.length = n ∧ (genRandom16 n s).1.length = n ∧ (genRandom32 n s).1.length = n ∧ (genRandom64 n s).1.length = n ∧
    (streamLE 1 (genRandom8 n s).1 = (streamLE 8 (genRandom64 ((n + 7) / 8) s).1).take n ∧ (genRandom8 n s).2 = (genRandom64 ((n + 7) / 8) s).2) ∧
    (streamLE 2 (genRandom16 n s).1 = (streamLE 8 (genRandom64 ((n + 3) / 4) s).1).take (2 * n) ∧
      (genRandom16 n s).2 = (genRandom64 ((n + 3) / 4) s).2) ∧
    (streamLE 4 (genRandom32 n s).1 = (streamLE 8 (genRandom64 ((n + 1) / 2) s).1).take (4 * n) ∧
      (genRandom32 n s).2 = (genRandom64 ((n + 1) / 2) s).2) := by
  have l64 : ∀ (n : Nat) (s : RandState), (genRandom64 n s).1.length = n := by
    intro n
    induction n with
    | zero => intro s; rfl
    | succ n ih => intro s; rw [genRandom64]; dsimp only; rw [List.length_cons, ih]
  refine ⟨genRandomB_length 8 8 (by decide) n n s le_rfl, genRandomB_length 16 4 (by decide) n n s le_rfl, genRandomB_length 32 2 (by decide) n n s le_rfl,
    l64 n s, ?_, ?_, ?_⟩
  · have := genRandomB_octets 1 8 (by decide) (by decide) n n s le_rfl
    rw [Nat.one_mul] at this
    exact this
  · exact genRandomB_octets 2 4 (by decide) (by decide) n n s le_rfl
  · exact genRandomB_octets 4 2 (by decide) (by decide) n n s le_rfl

theorem streamLE_one (l : List Byte) : streamLE 1 l = l := by
  induction l with
  | nil => rfl
  | cons a l ih =>
    rw [streamLE, List.flatMap_cons, ← streamLE, ih, octetsLE, octetsLE, List.cons_append, List.nil_append]
    congr 1
    simp

example : streamLE 4 (genRandom32 2 randInit).1 = (genRandom8 8 randInit).1 := by decide +kernel

/-! ### C44 -/

/-- `1 + a + … + a^(k-1)` -/
def geom (a : Nat) : Nat → Nat
  | 0 => 0
  | k + 1 => geom a k * a + 1

theorem geom_add (a j k : Nat) : geom a (j + k) = geom a j * a ^ k + geom a k := by
  induction k with
  | zero => simp [geom]
  | succ k ih => rw [← Nat.add_assoc, geom, ih, geom, pow_succ]; ring

theorem geom_mod_two (a k : Nat) (ha : a % 2 = 1) : geom a k % 2 = k % 2 := by
  induction k with
  | zero => rfl
  | succ k ih => rw [geom, Nat.add_mod, Nat.mul_mod, ha, ih]; omega

theorem pow_mod_four (a k : Nat) (ha : a % 4 = 1) : a ^ k % 4 = 1 := by
  simp [Nat.pow_mod, ha]

theorem geom_dvd (a : Nat) (ha : a % 4 = 1) : ∀ (m k : Nat), 2 ^ m ∣ geom a k ↔ 2 ^ m ∣ k := by
  intro m
  induction m with
  | zero => simp
  | succ m ih =>
    intro k
    rcases Nat.even_or_odd k with ⟨j, rfl⟩ | ho
    · rw [geom_add, show geom a j * a ^ j + geom a j = geom a j * (a ^ j + 1) by ring, ← Nat.two_mul]
      have h4 := pow_mod_four a j ha
      obtain ⟨t, ht⟩ : ∃ t, a ^ j + 1 = 2 * (2 * t + 1) := ⟨(a ^ j - 1) / 4, by omega⟩
      rw [ht, pow_succ', show geom a j * (2 * (2 * t + 1)) = 2 * (geom a j * (2 * t + 1)) by ring, Nat.mul_dvd_mul_iff_left (by decide),
        Nat.mul_dvd_mul_iff_left (by decide), ← ih j]
      constructor
      · intro h
        exact Nat.Coprime.dvd_of_dvd_mul_right (Nat.Coprime.pow_left _ (by rw [Nat.coprime_two_left]; exact ⟨t, rfl⟩)) h
      · exact fun h => Dvd.dvd.mul_right h _
    · have h1 := geom_mod_two a k (by omega)
      have h2 := Nat.odd_iff.mp ho
      constructor
      · intro h
        have : 2 ∣ geom a k := (dvd_pow_self 2 (by omega)).trans h
        omega
      · intro h
        have : 2 ∣ k := (dvd_pow_self 2 (by omega)).trans h
        omega

/-- `k` applications of the linear congruential step -/
def lcgIter : Nat → U64 → U64
  | 0, c => c
  | k + 1, c => lcgStep (lcgIter k c)

theorem lcgIter_eq (k : Nat) (c : U64) :
    ((lcgIter k c).toNat : ZMod (2 ^ 64)) = 6364136223846793005 ^ k * c.toNat + geom 6364136223846793005 k * 1442695040888963407 := by
  induction k with
  | zero => simp [lcgIter, geom]
  | succ k ih =>
    have e : ((lcgStep (lcgIter k c)).toNat : ZMod (2 ^ 64)) = (lcgIter k c).toNat * 6364136223846793005 + 1442695040888963407 := by
      rw [lcgStep, BitVec.toNat_add, BitVec.toNat_mul]
      have m : ∀ x : Nat, ((x % 2 ^ 64 : Nat) : ZMod (2 ^ 64)) = x := fun x => ZMod.natCast_mod x (2 ^ 64)
      rw [m, Nat.cast_add, m, Nat.cast_mul]
      rfl
    rw [lcgIter, e, ih, geom, pow_succ]; push_cast; ring

theorem geom_mul (a k : Nat) (ha : 1 ≤ a) : geom a k * (a - 1) + 1 = a ^ k := by
  induction k with
  | zero => simp [geom]
  | succ k ih =>
    rw [geom, pow_succ, ← ih]
    obtain ⟨b, rfl⟩ : ∃ b, a = b + 1 := ⟨a - 1, by omega⟩
    simp only [Nat.add_sub_cancel]; ring

theorem lcg_period (k : Nat) (c : U64) : lcgIter k c = c ↔ 2 ^ 64 ∣ k := by
  have h := lcgIter_eq k c
  have hg := congrArg (fun n : Nat => (n : ZMod (2 ^ 64))) (geom_mul 6364136223846793005 k (by decide))
  have e1 : ((lcgIter k c).toNat : ZMod (2 ^ 64)) - c.toNat =
      ((geom 6364136223846793005 k * (6364136223846793004 * c.toNat + 1442695040888963407) : Nat) : ZMod (2 ^ 64)) := by
    rw [h]; push_cast at hg ⊢
    norm_num at hg
    rw [← hg]; ring
  have e2 : lcgIter k c = c ↔ ((lcgIter k c).toNat : ZMod (2 ^ 64)) - c.toNat = 0 := by
    rw [sub_eq_zero, ZMod.natCast_eq_natCast_iff', Nat.mod_eq_of_lt (lcgIter k c).isLt, Nat.mod_eq_of_lt c.isLt]
    exact ⟨fun h => by rw [h], fun h => BitVec.eq_of_toNat_eq h⟩
  rw [e2, e1, ZMod.natCast_eq_zero_iff, ← geom_dvd 6364136223846793005 (by decide) 64 k]
  constructor
  · intro hd
    refine Nat.Coprime.dvd_of_dvd_mul_right (Nat.Coprime.pow_left _ ?_) hd
    rw [Nat.coprime_two_left, Nat.odd_iff]; omega
  · exact fun hd => Dvd.dvd.mul_right hd _

/-- The state after `k` calls of `generate_random_value`. -/
def randAfter : Nat → RandState → RandState
  | 0, s => s
  | k + 1, s => (randValue (randAfter k s)).2

theorem randAfter_eq (k : Nat) (c : U64) : randAfter k ⟨[], c⟩ = ⟨[], lcgIter (2 * k) c⟩ := by
  induction k with
  | zero => rfl
  | succ k ih => rw [randAfter, ih]; rfl

/-- C44: the state recurs exactly after the multiples of `2^63` calls. -/
theorem C44_period (k : Nat) (c : U64) : randAfter k ⟨[], c⟩ = ⟨[], c⟩ ↔ 2 ^ 63 ∣ k := by
  rw [randAfter_eq]
  have : (⟨[], lcgIter (2 * k) c⟩ : RandState) = ⟨[], c⟩ ↔ lcgIter (2 * k) c = c := by simp
  rw [this, lcg_period, show (2 : Nat) ^ 64 = 2 * 2 ^ 63 by norm_num, Nat.mul_dvd_mul_iff_left (by decide)]

/-- Hence no two of the first `2^63` states are equal. -/
theorem C44_distinct (i j : Nat) (c : U64) (hij : i < j) (hj : j < 2 ^ 63) : randAfter i ⟨[], c⟩ ≠ randAfter j ⟨[], c⟩ := by
  intro h
  rw [randAfter_eq, randAfter_eq] at h
  have add : ∀ a b, lcgIter (a + b) c = lcgIter b (lcgIter a c) := by
    intro a b
    induction b with
    | zero => rfl
    | succ b ih => rw [← Nat.add_assoc, lcgIter, ih, lcgIter]
  have h2 : lcgIter (2 * j) c = lcgIter (2 * (j - i)) (lcgIter (2 * i) c) := by
    rw [← add]; congr 1; omega
  have h3 : lcgIter (2 * i) c = lcgIter (2 * j) c := congrArg RandState.cval h
  rw [h2] at h3
  have := (lcg_period _ _).mp h3.symm
  have := Nat.le_of_dvd (by omega) this
  omega

example : randAfter 3 randInit ≠ randInit := by decide +kernel

/-! ### C45 -/

/-- A fresh process. The build without `PLATFORM_HAS_RDSEED` takes nothing from its environment (`env`: clock, process id, entropy device, …):
src/random.cpp:5, include/caligo/random.h:21. -/
def freshProcess (_env : Nat) : RandState := randInit

/-- C45, the full claim: for some environments the first 32 random bytes differ. -/
def C45_claim : Prop := ∃ e1 e2, (genRandom8 32 (freshProcess e1)).1 ≠ (genRandom8 32 (freshProcess e2)).1

theorem C45_false : ¬ C45_claim := by
  rintro ⟨e1, e2, h⟩
  exact h rfl

/-- C45, what the code does: the first 32 bytes of every process are these. Missing: any dependence on the environment. -/
theorem C45_partial (env : Nat) : (genRandom8 32 (freshProcess env)).1 =
    [0x96#8, 0x1e#8, 0xf5#8, 0x77#8, 0x53#8, 0x42#8, 0x53#8, 0x51#8, 0xb4#8, 0xfb#8, 0x55#8, 0x7e#8, 0xd5#8, 0xa8#8, 0x1f#8, 0xe4#8, 0x87#8, 0xb2#8, 0xad#8, 0x43#8, 0x76#8, 0x9a#8, 0x6a#8, 0x82#8, 0xaa#8, 0x8c#8, 0x9f#8, 0xc1#8, 0xdd#8, 0xe6#8, 0x4d#8, 0xf1#8] := by
  rw [freshProcess]; decide +kernel

end Verif.Props
