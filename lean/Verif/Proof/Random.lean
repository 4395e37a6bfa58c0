import Verif.Model.Random
import Mathlib.Tactic.Ring

namespace Verif.Proof
open Verif.Model

theorem splitValue_length (b : Nat) : ∀ (per left : Nat) (v : U64), (splitValue b per left v).length = min per left
  | 0, _, _ => by simp [splitValue]
  | _ + 1, 0, _ => by simp [splitValue]
  | per + 1, left + 1, v => by rw [splitValue, List.length_cons, splitValue_length]; omega

theorem genRandomB_length (b per : Nat) (hp : 0 < per) : ∀ (n left : Nat) (s : RandState), left ≤ n → (genRandomB b per left s).1.length = left := by
  intro n
  induction n with
  | zero =>
    intro left s h
    rw [genRandomB, dif_pos (by omega)]; simp; omega
  | succ n ih =>
    intro left s h
    rw [genRandomB]
    by_cases h0 : left = 0 ∨ per = 0
    · rw [dif_pos h0]; simp; omega
    · rw [dif_neg h0]
      simp only [List.length_append, splitValue_length]
      rw [ih _ _ (by omega)]; omega

theorem genRandom8_length (n : Nat) (s : RandState) : (genRandom8 n s).1.length = n := genRandomB_length 8 8 (by decide) n n s le_rfl

end Verif.Proof
