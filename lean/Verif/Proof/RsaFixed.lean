import Mathlib.GroupTheory.SpecificGroups.Cyclic
import Mathlib.RingTheory.IntegralDomain
import Mathlib.FieldTheory.Finite.Basic
import Mathlib.Data.ZMod.QuotientRing

/-! How many residues modulo the product of two primes a power leaves unchanged. -/

namespace Verif.Proof

theorem unit_roots (p k : Nat) [Fact p.Prime] : Nat.card {u : (ZMod p)ˣ // u ^ k = 1} = Nat.gcd (p - 1) k := by
  have := IsCyclic.card_powMonoidHom_ker (G := (ZMod p)ˣ) k
  rw [Nat.card_eq_fintype_card (α := (ZMod p)ˣ), ZMod.card_units p] at this
  rw [← this]
  exact Nat.card_congr (Equiv.subtypeEquivRight (fun u => by simp [MonoidHom.mem_ker]))

/-- Zero and the units that the power leaves unchanged. -/
def fixedOf (p k : Nat) : Option {u : (ZMod p)ˣ // u ^ k = 1} → {x : ZMod p // x ^ (k + 1) = x}
  | none => ⟨0, by simp⟩
  | some u => ⟨(u.1 : ZMod p), by rw [pow_succ, ← Units.val_pow_eq_pow_val, u.2]; simp⟩

theorem field_fixed (p k : Nat) [Fact p.Prime] : Nat.card {x : ZMod p // x ^ (k + 1) = x} = Nat.gcd (p - 1) k + 1 := by
  rw [← unit_roots p k, ← Finite.card_option]
  refine (Nat.card_congr (Equiv.ofBijective (fixedOf p k) ⟨?_, ?_⟩)).symm
  · rintro (_ | u) (_ | v) h
    · rfl
    · exact absurd (Subtype.mk.inj h).symm v.1.ne_zero
    · exact absurd (Subtype.mk.inj h) u.1.ne_zero
    · congr 1; exact Subtype.ext (Units.ext (Subtype.mk.inj h))
  · rintro ⟨x, hx⟩
    by_cases h0 : x = 0
    · exact ⟨none, Subtype.ext h0.symm⟩
    · refine ⟨some ⟨Units.mk0 x h0, ?_⟩, Subtype.ext rfl⟩
      apply Units.ext
      rw [pow_succ] at hx
      have : x ^ k * x = 1 * x := by rw [hx, one_mul]
      simpa using mul_right_cancel₀ h0 this

theorem ring_fixed (p q k : Nat) (hp : p.Prime) (hq : q.Prime) (hpq : p ≠ q) :
    Nat.card {x : ZMod (p * q) // x ^ (k + 1) = x} = (Nat.gcd (p - 1) k + 1) * (Nat.gcd (q - 1) k + 1) := by
  have := Fact.mk hp
  have := Fact.mk hq
  rw [← field_fixed p k, ← field_fixed q k, ← Nat.card_prod]
  let φ := ZMod.chineseRemainder ((Nat.coprime_primes hp hq).mpr hpq)
  refine Nat.card_congr ((φ.toEquiv.subtypeEquiv (q := fun y : ZMod p × ZMod q => y.1 ^ (k + 1) = y.1 ∧ y.2 ^ (k + 1) = y.2) ?_).trans
    (Equiv.subtypeProdEquivProd (p := fun y : ZMod p => y ^ (k + 1) = y) (q := fun y : ZMod q => y ^ (k + 1) = y)))
  intro x
  rw [← φ.injective.eq_iff, map_pow, Prod.ext_iff]
  rfl

theorem range_fixed (n e : Nat) (hn : 0 < n) : Nat.card {m : Nat // m < n ∧ m ^ e % n = m} = Nat.card {x : ZMod n // x ^ e = x} := by
  have : NeZero n := ⟨by omega⟩
  refine Nat.card_congr (Equiv.ofBijective (fun m => ⟨((m : Nat) : ZMod n), ?_⟩) ⟨?_, ?_⟩)
  · rw [← Nat.cast_pow, ZMod.natCast_eq_natCast_iff, Nat.ModEq, m.2.2, Nat.mod_eq_of_lt m.2.1]
  · rintro ⟨a, ha, _⟩ ⟨b, hb, _⟩ h
    have h := Subtype.mk.inj h
    rw [ZMod.natCast_eq_natCast_iff, Nat.ModEq, Nat.mod_eq_of_lt ha, Nat.mod_eq_of_lt hb] at h
    exact Subtype.ext h
  · rintro ⟨x, hx⟩
    refine ⟨⟨x.val, ZMod.val_lt x, ?_⟩, Subtype.ext (by simp)⟩
    rw [← ZMod.val_natCast, Nat.cast_pow, ZMod.natCast_zmod_val, hx]

end Verif.Proof
