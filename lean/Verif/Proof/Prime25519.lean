import Mathlib.NumberTheory.LucasPrimality
import Mathlib.Tactic.NormNum.Prime
import Verif.Spec.X25519

/-! `2^255 - 19` is prime: Lucas certificates whose powers are computed by the kernel. -/

namespace Verif.Proof
open Verif.Spec

/-- `b^e mod m` by squaring; `fuel` bounds the number of bits of `e`. -/
def powMod (m : Nat) : (fuel b e : Nat) → Nat
  | 0, _, _ => 1 % m
  | fuel + 1, b, e =>
    let r := powMod m fuel (b * b % m) (e / 2)
    if e % 2 = 1 then b * r % m else r

theorem powMod_eq (m fuel b e : Nat) (h : e < 2 ^ fuel) : powMod m fuel b e = b ^ e % m := by
  induction fuel generalizing b e with
  | zero =>
    have : e = 0 := by simpa using h
    subst this; simp [powMod]
  | succ fuel ih =>
    have h1 : e / 2 < 2 ^ fuel := by rw [pow_succ] at h; omega
    rw [powMod, ih (b * b % m) (e / 2) h1, ← Nat.pow_mod, ← pow_two, ← pow_mul]
    split
    · next h2 =>
      rw [Nat.mul_mod, Nat.mod_mod, ← Nat.mul_mod, ← pow_succ']
      congr 2; omega
    · next h2 =>
      congr 2; omega

theorem zmod_pow_iff (n a e : Nat) (hn : 1 < n) (h : e < 2 ^ 256) : (a : ZMod n) ^ e = 1 ↔ powMod n 256 a e = 1 := by
  rw [powMod_eq n 256 a e h, ← Nat.cast_pow, ← Nat.cast_one, ZMod.natCast_eq_natCast_iff, Nat.ModEq, Nat.mod_eq_of_lt hn]

/-- Lucas' test with a factorisation of `n - 1` into primes. -/
theorem lucas (n a : Nat) (fs : List Nat) (hn : 1 < n) (hlt : n < 2 ^ 256) (hp : ∀ q ∈ fs, q.Prime) (hprod : fs.prod = n - 1)
    (h1 : powMod n 256 a (n - 1) = 1) (h2 : ∀ q ∈ fs, powMod n 256 a ((n - 1) / q) ≠ 1) : n.Prime := by
  refine lucas_primality n (a : ZMod n) ((zmod_pow_iff n a _ hn (by omega)).mpr h1) (fun q hq hd => ?_)
  have hmem : q ∈ fs := by
    rw [← hprod] at hd
    obtain ⟨r, hr, hqr⟩ := (Nat.Prime.prime hq).dvd_prod_iff.mp hd
    rw [(Nat.prime_dvd_prime_iff_eq hq (hp r hr)).mp hqr]; exact hr
  intro hc
  exact h2 q hmem ((zmod_pow_iff n a _ hn (lt_of_le_of_lt (Nat.div_le_self _ _) (by omega))).mp hc)

theorem prime_a : Nat.Prime 31757755568855353 :=
  lucas _ 10 [2, 2, 2, 3, 31, 107, 223, 4153, 430751] (by decide) (by decide +kernel)
    (by intro q hq; simp only [List.mem_cons, List.not_mem_nil, or_false] at hq; rcases hq with h | h | h | h | h | h | h | h | h <;> (subst h; norm_num))
    (by decide +kernel) (by decide +kernel) (by decide +kernel)

theorem prime_b : Nat.Prime 2773320623 :=
  lucas _ 5 [2, 2437, 569003] (by decide) (by decide +kernel)
    (by intro q hq; simp only [List.mem_cons, List.not_mem_nil, or_false] at hq; rcases hq with h | h | h <;> (subst h; norm_num))
    (by decide +kernel) (by decide +kernel) (by decide +kernel)

theorem prime_c : Nat.Prime 72106336199 :=
  lucas _ 7 [2, 13, 2773320623] (by decide) (by decide +kernel)
    (by
      intro q hq; simp only [List.mem_cons, List.not_mem_nil, or_false] at hq
      rcases hq with h | h | h <;> subst h
      · norm_num
      · norm_num
      · exact prime_b)
    (by decide +kernel) (by decide +kernel) (by decide +kernel)

theorem prime_d : Nat.Prime 1919519569386763 :=
  lucas _ 2 [2, 3, 7, 19, 47, 47, 127, 8574133] (by decide) (by decide +kernel)
    (by intro q hq; simp only [List.mem_cons, List.not_mem_nil, or_false] at hq; rcases hq with h | h | h | h | h | h | h | h <;> (subst h; norm_num))
    (by decide +kernel) (by decide +kernel) (by decide +kernel)

theorem prime_e : Nat.Prime 75445702479781427272750846543864801 :=
  lucas _ 7 [2, 2, 2, 2, 2, 3, 3, 5, 5, 75707, 72106336199, 1919519569386763] (by decide +kernel) (by decide +kernel)
    (by
      intro q hq; simp only [List.mem_cons, List.not_mem_nil, or_false] at hq
      rcases hq with h | h | h | h | h | h | h | h | h | h | h | h <;> subst h
      all_goals first | exact prime_c | exact prime_d | norm_num)
    (by decide +kernel) (by decide +kernel) (by decide +kernel)

theorem prime_f : Nat.Prime 74058212732561358302231226437062788676166966415465897661863160754340907 :=
  lucas _ 2 [2, 3, 353, 57467, 132049, 1923133, 31757755568855353, 75445702479781427272750846543864801] (by decide +kernel) (by decide +kernel)
    (by
      intro q hq; simp only [List.mem_cons, List.not_mem_nil, or_false] at hq
      rcases hq with h | h | h | h | h | h | h | h <;> subst h
      all_goals first | exact prime_a | exact prime_e | norm_num)
    (by decide +kernel) (by decide +kernel) (by decide +kernel)

theorem prime_25519 : p25519.Prime :=
  lucas _ 2 [2, 2, 3, 65147, 74058212732561358302231226437062788676166966415465897661863160754340907] (by decide +kernel) (by decide +kernel)
    (by
      intro q hq; simp only [List.mem_cons, List.not_mem_nil, or_false] at hq
      rcases hq with h | h | h | h | h <;> subst h
      all_goals first | exact prime_f | norm_num)
    (by decide +kernel) (by decide +kernel) (by decide +kernel)

end Verif.Proof
