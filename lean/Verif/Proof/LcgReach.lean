import Verif.Props.Random

/-! Which states the random generator reaches from which. -/

namespace Verif.Proof
open Verif.Model Verif.Props

theorem lcgIter_add (a b : Nat) (c : U64) : lcgIter (a + b) c = lcgIter b (lcgIter a c) := by
  induction b with
  | zero => rfl
  | succ b ih => rw [← Nat.add_assoc, lcgIter, ih, lcgIter]

theorem lcgIter_nat (k : Nat) (c : U64) :
    (lcgIter k c).toNat = (c.toNat + geom 6364136223846793005 k * (6364136223846793004 * c.toNat + 1442695040888963407)) % 2 ^ 64 := by
  have h := lcgIter_eq k c
  have hg := congrArg (fun n : Nat => (n : ZMod (2 ^ 64))) (geom_mul 6364136223846793005 k (by decide))
  have e1 : ((lcgIter k c).toNat : ZMod (2 ^ 64)) =
      ((c.toNat + geom 6364136223846793005 k * (6364136223846793004 * c.toNat + 1442695040888963407) : Nat) : ZMod (2 ^ 64)) := by
    rw [h]; push_cast at hg ⊢
    norm_num at hg
    rw [← hg]; ring
  rw [ZMod.natCast_eq_natCast_iff', Nat.mod_eq_of_lt (lcgIter k c).isLt] at e1
  exact e1

/-- The low `e` bits recur exactly after the multiples of `2^e` steps. -/
theorem lcg_mod (e : Nat) (he : e ≤ 64) (k : Nat) (c : U64) : (lcgIter k c).toNat % 2 ^ e = c.toNat % 2 ^ e ↔ 2 ^ e ∣ k := by
  rw [lcgIter_nat, Nat.mod_mod_of_dvd _ (Nat.pow_dvd_pow 2 he), ← geom_dvd 6364136223846793005 (by decide) e k]
  generalize geom 6364136223846793005 k = G
  generalize hx : 6364136223846793004 * c.toNat + 1442695040888963407 = x
  have hodd : Nat.Coprime (2 ^ e) x := by
    refine Nat.Coprime.pow_left _ ?_
    rw [Nat.coprime_two_left, Nat.odd_iff]; omega
  constructor
  · intro h
    have h' : 2 ^ e ∣ G * x := by
      have := (Nat.modEq_iff_dvd' (Nat.le_add_right c.toNat (G * x))).mp (Eq.symm h)
      rwa [Nat.add_sub_cancel_left] at this
    exact Nat.Coprime.dvd_of_dvd_mul_right hodd h'
  · rintro ⟨y, rfl⟩
    rw [Nat.mul_assoc, Nat.add_mul_mod_self_left]

/-- Every state is reached from every state. -/
theorem lcg_reach (c t : U64) : ∃ k, lcgIter k c = t := by
  let f : Fin (2 ^ 64) → Fin (2 ^ 64) := fun k => (lcgIter k.val c).toFin
  have aux : ∀ a b : Fin (2 ^ 64), a.val ≤ b.val → f a = f b → a = b := by
    intro a b hab h
    have h' : lcgIter a.val c = lcgIter b.val c := BitVec.eq_of_toFin_eq h
    have e : b.val = a.val + (b.val - a.val) := by omega
    rw [e, lcgIter_add] at h'
    have hd := (lcg_period _ _).mp h'.symm
    have hb := b.isLt
    have hz := Nat.eq_zero_of_dvd_of_lt hd (by omega)
    exact Fin.ext (by omega)
  have inj : Function.Injective f := by
    intro a b h
    rcases Nat.le_total a.val b.val with hab | hab
    · exact aux a b hab h
    · exact (aux b a hab h.symm).symm
  obtain ⟨k, hk⟩ := Finite.injective_iff_surjective.mp inj t.toFin
  exact ⟨k.val, BitVec.eq_of_toFin_eq hk⟩

/-- With `m` steps at a time exactly the states are reached that agree in the low bits, as many as 2 divides `m`. -/
theorem lcg_reach_mul (m : Nat) (c t : U64) : (∃ j, lcgIter (j * m) c = t) ↔ t.toNat % Nat.gcd m (2 ^ 64) = c.toNat % Nat.gcd m (2 ^ 64) := by
  obtain ⟨e, he, hd⟩ := (Nat.dvd_prime_pow Nat.prime_two).mp (Nat.gcd_dvd_right m (2 ^ 64))
  constructor
  · rintro ⟨j, rfl⟩
    rw [hd, lcg_mod e he, ← hd]
    exact Dvd.dvd.mul_left (Nat.gcd_dvd_left _ _) _
  · intro h
    obtain ⟨k, rfl⟩ := lcg_reach c t
    rw [hd, lcg_mod e he, ← hd] at h
    obtain ⟨q, rfl⟩ := h
    -- j * m = gcd * q modulo 2^64
    have hb := Nat.gcd_eq_gcd_ab m (2 ^ 64)
    refine ⟨((Nat.gcdA m (2 ^ 64) * q) % (2 ^ 64 : Nat)).toNat, ?_⟩
    generalize hj : ((Nat.gcdA m (2 ^ 64) * q) % (2 ^ 64 : Nat)).toNat = j
    have hjz : (j : ℤ) = (Nat.gcdA m (2 ^ 64) * q) % (2 ^ 64 : Nat) := by
      rw [← hj, Int.toNat_of_nonneg (Int.emod_nonneg _ (by norm_num))]
    have hcong : (j * m) ≡ Nat.gcd m (2 ^ 64) * q [MOD 2 ^ 64] := by
      rw [← Int.natCast_modEq_iff]
      rw [Nat.cast_mul, Nat.cast_mul, hjz, hb]
      have h1 : (Nat.gcdA m (2 ^ 64) * q) % ((2 ^ 64 : Nat) : ℤ) ≡ Nat.gcdA m (2 ^ 64) * q [ZMOD (2 ^ 64 : Nat)] := Int.mod_modEq _ _
      refine (show _ ≡ _ [ZMOD ((2 ^ 64 : Nat) : ℤ)] from h1.mul_right m).trans ?_
      rw [Int.modEq_iff_dvd]
      exact ⟨Nat.gcdB m (2 ^ 64) * q, by ring⟩
    generalize Nat.gcd m (2 ^ 64) * q = k at *
    generalize j * m = l at *
    have key : ∀ a b : Nat, a ≤ b → a ≡ b [MOD 2 ^ 64] → lcgIter a c = lcgIter b c := by
      intro a b hab h
      have hdv := (Nat.modEq_iff_dvd' hab).mp h
      have e : b = (b - a) + a := by omega
      rw [e, lcgIter_add, (lcg_period _ _).mpr hdv]
    rcases Nat.le_total l k with h | h
    · exact key _ _ h hcong
    · exact (key _ _ h hcong.symm).symm

end Verif.Proof
