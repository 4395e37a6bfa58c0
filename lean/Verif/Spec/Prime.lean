import Mathlib.Data.Nat.Prime.Basic
import Mathlib.Data.Nat.ModEq

/-! Strong probable primes. -/

namespace Verif.Spec

/-- `n` is a strong probable prime to base `a`: writing `n - 1 = 2^r d` with odd `d`, either `a^d ≡ 1` or `a^(2^s d) ≡ -1` for some `s < r`. -/
def StrongProbablePrime (n a : Nat) : Prop :=
  ∃ r d, n - 1 = 2 ^ r * d ∧ d % 2 = 1 ∧ (a ^ d ≡ 1 [MOD n] ∨ ∃ s < r, n ∣ a ^ (2 ^ s * d) + 1)

end Verif.Spec
