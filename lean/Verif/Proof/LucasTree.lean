import Mathlib.GroupTheory.OrderOfElement
import Mathlib.FieldTheory.Finite.Basic
import Mathlib.Tactic.Ring

/-! Pocklington's primality test for numbers of more than ten thousand bits, whose predecessor is divisible by many small primes: the powers for all
these primes are computed along a tree. -/

namespace Verif.Proof

/-- One bit `d` of the exponent: the accumulator is squared and multiplied by the base if the bit is set. -/
def powBit (m b acc d : Nat) : Nat := Nat.mod (Nat.mul (Nat.mod (Nat.pow acc 2) m) (Nat.pow b d)) m

/-- Four bits `n` of the exponent. -/
def powStep4 (m b acc n : Nat) : Nat :=
  powBit m b (powBit m b (powBit m b (powBit m b acc (Nat.div n 8)) (Nat.mod (Nat.div n 4) 2)) (Nat.mod (Nat.div n 2) 2)) (Nat.mod n 2)

/-- Sixteen bits `c` of the exponent, written out because the kernel is faster with it. -/
def powStep16 (m b acc c : Nat) : Nat :=
  Nat.mod (Nat.mul (Nat.mod (Nat.pow (Nat.mod (Nat.mul (Nat.mod (Nat.pow (Nat.mod (Nat.mul (Nat.mod (Nat.pow (Nat.mod (Nat.mul (Nat.mod (Nat.pow
    (Nat.mod (Nat.mul (Nat.mod (Nat.pow (Nat.mod (Nat.mul (Nat.mod (Nat.pow (Nat.mod (Nat.mul (Nat.mod (Nat.pow (Nat.mod (Nat.mul (Nat.mod (Nat.pow
    (Nat.mod (Nat.mul (Nat.mod (Nat.pow (Nat.mod (Nat.mul (Nat.mod (Nat.pow (Nat.mod (Nat.mul (Nat.mod (Nat.pow (Nat.mod (Nat.mul (Nat.mod (Nat.pow
    (Nat.mod (Nat.mul (Nat.mod (Nat.pow (Nat.mod (Nat.mul (Nat.mod (Nat.pow (Nat.mod (Nat.mul (Nat.mod (Nat.pow (Nat.mod (Nat.mul (Nat.mod (Nat.pow
    acc 2) m) (Nat.pow b (Nat.div (Nat.div c 4096) 8))) m) 2) m) (Nat.pow b (Nat.mod (Nat.div (Nat.div c 4096) 4) 2))) m) 2) m) (Nat.pow b (Nat.mod
    (Nat.div (Nat.div c 4096) 2) 2))) m) 2) m) (Nat.pow b (Nat.mod (Nat.div c 4096) 2))) m) 2) m) (Nat.pow b (Nat.div (Nat.mod (Nat.div c 256) 16)
    8))) m) 2) m) (Nat.pow b (Nat.mod (Nat.div (Nat.mod (Nat.div c 256) 16) 4) 2))) m) 2) m) (Nat.pow b (Nat.mod (Nat.div (Nat.mod (Nat.div c 256) 16)
    2) 2))) m) 2) m) (Nat.pow b (Nat.mod (Nat.mod (Nat.div c 256) 16) 2))) m) 2) m) (Nat.pow b (Nat.div (Nat.mod (Nat.div c 16) 16) 8))) m) 2) m)
    (Nat.pow b (Nat.mod (Nat.div (Nat.mod (Nat.div c 16) 16) 4) 2))) m) 2) m) (Nat.pow b (Nat.mod (Nat.div (Nat.mod (Nat.div c 16) 16) 2) 2))) m) 2)
    m) (Nat.pow b (Nat.mod (Nat.mod (Nat.div c 16) 16) 2))) m) 2) m) (Nat.pow b (Nat.div (Nat.mod c 16) 8))) m) 2) m) (Nat.pow b (Nat.mod (Nat.div
    (Nat.mod c 16) 4) 2))) m) 2) m) (Nat.pow b (Nat.mod (Nat.div (Nat.mod c 16) 2) 2))) m) 2) m) (Nat.pow b (Nat.mod (Nat.mod c 16) 2))) m

theorem powStep16_steps (m b acc c : Nat) : powStep16 m b acc c =
    powStep4 m b (powStep4 m b (powStep4 m b (powStep4 m b acc (c / 4096)) (c / 256 % 16)) (c / 16 % 16)) (c % 16) := rfl

theorem powBit_eq (m b acc s c d : Nat) : powBit m b (acc ^ s * b ^ c % m) d = acc ^ (2 * s) * b ^ (2 * c + d) % m := by
  change ((acc ^ s * b ^ c % m) ^ 2 % m) * b ^ d % m = _
  rw [← Nat.pow_mod, Nat.mod_mul_mod]
  ring_nf

theorem powStep4_eq (m b acc s c n : Nat) (hn : n < 16) : powStep4 m b (acc ^ s * b ^ c % m) n = acc ^ (16 * s) * b ^ (16 * c + n) % m := by
  change powBit m b (powBit m b (powBit m b (powBit m b _ (n / 8)) (n / 4 % 2)) (n / 2 % 2)) (n % 2) = _
  rw [powBit_eq, powBit_eq, powBit_eq, powBit_eq]
  generalize hs : 2 * (2 * (2 * (2 * s))) = t
  generalize he : 2 * (2 * (2 * (2 * c + n / 8) + n / 4 % 2) + n / 2 % 2) + n % 2 = x
  obtain rfl : t = 16 * s := by omega
  obtain rfl : x = 16 * c + n := by omega
  rfl

theorem powStep16_eq (m b acc c : Nat) (hc : c < 65536) (ha : acc < m) : powStep16 m b acc c = acc ^ 65536 * b ^ c % m := by
  have h : acc = acc ^ 1 * b ^ 0 % m := by rw [pow_one, pow_zero, Nat.mul_one, Nat.mod_eq_of_lt ha]
  have e : powStep4 m b acc (c / 4096) = acc ^ (16 * 1) * b ^ (16 * 0 + c / 4096) % m := by
    conv => lhs; rw [h]
    exact powStep4_eq m b acc 1 0 _ (by omega)
  rw [powStep16_steps, e, powStep4_eq _ _ _ _ _ _ (by omega), powStep4_eq _ _ _ _ _ _ (by omega), powStep4_eq _ _ _ _ _ _ (by omega)]
  generalize hs : 16 * (16 * (16 * (16 * 1))) = s
  generalize he : 16 * (16 * (16 * (16 * 0 + c / 4096) + c / 256 % 16) + c / 16 % 16) + c % 16 = x
  obtain rfl : s = 65536 := by omega
  obtain rfl : x = c := by omega
  rfl

/-- `acc^(65536^k) * b^(e mod 65536^k) mod m`, sixteen bits at a time; the match makes the kernel compute the accumulator at once. -/
def powGo (m b e : Nat) : (k acc : Nat) → Nat
  | 0, acc => acc
  | k + 1, acc =>
    match powStep16 m b acc (Nat.mod (Nat.shiftRight e (Nat.mul 16 k)) 65536) with
    | 0 => 0
    | r + 1 => powGo m b e k (Nat.succ r)

theorem powGo_eq (m b e : Nat) : ∀ (k acc : Nat), acc < m → powGo m b e k acc = acc ^ 65536 ^ k * b ^ (e % 65536 ^ k) % m
  | 0, acc, h => by rw [powGo, pow_zero, Nat.mod_one, pow_one, pow_zero, Nat.mul_one, Nat.mod_eq_of_lt h]
  | k + 1, acc, h => by
    have hsh : Nat.mod (Nat.shiftRight e (Nat.mul 16 k)) 65536 = e / 65536 ^ k % 65536 := by
      change e >>> (16 * k) % 65536 = _
      rw [Nat.shiftRight_eq_div_pow, pow_mul]; rfl
    have h8 := powStep16_eq m b acc (e / 65536 ^ k % 65536) (Nat.mod_lt _ (by decide)) h
    have step : (powStep16 m b acc (e / 65536 ^ k % 65536)) ^ 65536 ^ k * b ^ (e % 65536 ^ k) % m =
        acc ^ 65536 ^ (k + 1) * b ^ (e % 65536 ^ (k + 1)) % m := by
      rw [h8, pow_succ' 65536 k, Nat.mul_comm 65536 (65536 ^ k)]
      generalize 65536 ^ k = N
      rw [Nat.mod_mul]
      generalize (65536 : Nat) = B
      rw [Nat.mul_mod, ← Nat.pow_mod, ← Nat.mul_mod, mul_pow, ← pow_mul, ← pow_mul, mul_assoc, ← pow_add, Nat.mul_comm N B,
        Nat.mul_comm N, Nat.add_comm (e % N)]
    rw [← step, powGo, hsh]
    have hm : 0 < m := by omega
    split
    · next h0 =>
      rw [h0, Nat.zero_pow (Nat.pow_pos (by decide)), Nat.zero_mul, Nat.zero_mod]
    · next r hr =>
      rw [powGo_eq m b e k (r + 1) (by have := Nat.mod_lt (acc ^ 65536 * b ^ (e / 65536 ^ k % 65536)) hm; rw [← h8, hr] at this; exact this), hr]

/-- `b^e mod m` -/
def powW (m b e : Nat) : Nat := powGo m b e (e.log2 / 16 + 1) 1

theorem powW_eq (m b e : Nat) (hm : 1 < m) : powW m b e = b ^ e % m := by
  rw [powW, powGo_eq _ _ _ _ _ hm, one_pow, Nat.one_mul, Nat.mod_eq_of_lt (a := e)]
  have h : e < 2 ^ (e.log2 + 1) := Nat.lt_log2_self
  refine lt_of_lt_of_le h ?_
  rw [show (65536 : Nat) = 2 ^ 16 from rfl, ← pow_mul]
  exact Nat.pow_le_pow_right (by decide) (by omega)

/-- Trees of numbers. -/
inductive PTree where
  | leaf (q : Nat)
  | node (l r : PTree)

def PTree.list : PTree → List Nat
  | .leaf q => [q]
  | .node l r => l.list ++ r.list

def PTree.prod : PTree → Nat
  | .leaf q => q
  | .node l r => l.prod * r.prod

/-- `h` has the order `t.prod` modulo every prime divisor of `p`, if the numbers in `t` are distinct primes. -/
def PTree.check (p : Nat) : PTree → Nat → Bool
  | .leaf q, h => (Nat.gcd (h + (p - 1)) p).beq 1 && (powW p h q).beq 1
  | .node l r, h => l.check p (powW p h r.prod) && r.check p (powW p h l.prod)

theorem PTree.prod_eq (t : PTree) : t.prod = t.list.prod := by
  induction t with
  | leaf q => simp [prod, list]
  | node l r h1 h2 => rw [prod, list, List.prod_append, h1, h2]

theorem PTree.check_spec (p : Nat) (hp : 1 < p) (r : Nat) (hr : 1 < r) (hd : r ∣ p) : ∀ (t : PTree) (h : Nat), t.check p h = true →
    (h : ZMod r) ^ t.prod = 1 ∧ ∀ q ∈ t.list, ∃ c, t.prod = q * c ∧ (h : ZMod r) ^ c ≠ 1 := by
  have cast : ∀ h e : Nat, ((powW p h e : Nat) : ZMod r) = (h : ZMod r) ^ e := by
    intro h e
    rw [powW_eq _ _ _ hp, ← Nat.cast_pow, ZMod.natCast_eq_natCast_iff, Nat.ModEq, Nat.mod_mod_of_dvd _ hd]
  intro t
  induction t with
  | leaf q =>
    intro h hc
    simp only [check, Bool.and_eq_true] at hc
    replace hc := And.intro (Nat.eq_of_beq_eq_true hc.1) (Nat.eq_of_beq_eq_true hc.2)
    constructor
    · have := cast h q
      rw [hc.2, Nat.cast_one] at this
      exact this.symm
    · intro q' hq
      obtain rfl : q' = q := by simpa [list] using hq
      refine ⟨1, by rw [prod, Nat.mul_one], fun h1 => ?_⟩
      rw [pow_one, ← Nat.cast_one, ZMod.natCast_eq_natCast_iff, Nat.ModEq, Nat.mod_eq_of_lt hr] at h1
      have d1 : r ∣ h + (p - 1) := by
        obtain ⟨c, rfl⟩ := hd
        have hcp : 0 < c := by rcases Nat.eq_zero_or_pos c with rfl | h <;> omega
        have e : h = 1 + r * (h / r) := by have := Nat.mod_add_div h r; omega
        refine ⟨h / r + c, ?_⟩
        rw [Nat.mul_add]; omega
      have := Nat.dvd_gcd d1 hd
      rw [hc.1, Nat.dvd_one] at this
      omega
  | node l r' hl hr' =>
    intro h hc
    simp only [check, Bool.and_eq_true] at hc
    obtain ⟨l1, l2⟩ := hl _ hc.1
    obtain ⟨r1, r2⟩ := hr' _ hc.2
    rw [cast, ← pow_mul] at l1 r1
    refine ⟨by rw [prod, Nat.mul_comm]; exact l1, fun q hq => ?_⟩
    rw [list, List.mem_append] at hq
    rcases hq with hq | hq
    · obtain ⟨c, e, hc⟩ := l2 q hq
      rw [cast, ← pow_mul] at hc
      exact ⟨r'.prod * c, by rw [prod, e]; ring, hc⟩
    · obtain ⟨c, e, hc⟩ := r2 q hq
      rw [cast, ← pow_mul] at hc
      exact ⟨l.prod * c, by rw [prod, e]; ring, hc⟩

/-- `h` has the order `t.prod` modulo every prime divisor of `p`, so this number divides the predecessor of each. -/
theorem PTree.check_dvd (p h F : Nat) (t : PTree) (ht : ∀ q ∈ t.list, q.Prime) (hF : t.prod = F) (h0 : 1 < p) (hc : t.check p h = true) (r : Nat) (hr : r.Prime)
    (hd : r ∣ p) : F ∣ r - 1 := by
  obtain ⟨c1, c2⟩ := t.check_spec p h0 _ hr.one_lt hd _ hc
  haveI : Fact r.Prime := ⟨hr⟩
  have hFpos : 0 < F := by
    rw [← hF, t.prod_eq]
    exact List.prod_pos (fun q hq => (ht q hq).pos)
  have ho : orderOf (h : ZMod r) = F := by
    rw [hF] at c1 c2
    refine orderOf_eq_of_pow_and_pow_div_prime hFpos c1 (fun q hq hqF => ?_)
    have hmem : q ∈ t.list := by
      rw [← hF, t.prod_eq] at hqF
      obtain ⟨r, hr, hqr⟩ := (Nat.Prime.prime hq).dvd_prod_iff.mp hqF
      rw [(Nat.prime_dvd_prime_iff_eq hq (ht r hr)).mp hqr]; exact hr
    obtain ⟨c, e, hne⟩ := c2 q hmem
    rw [e, Nat.mul_div_cancel_left _ hq.pos]
    exact hne
  have hz : (h : ZMod r) ≠ 0 := by
    intro hz
    rw [hz, hF, zero_pow (by omega)] at c1
    exact zero_ne_one c1
  rw [← ho]
  exact orderOf_dvd_of_pow_eq_one (ZMod.pow_card_sub_one_eq_one hz)

/-- Pocklington's test: `h` has the order `t.prod` modulo every prime divisor of `p`, and that is more than the root of `p`. -/
theorem pocklington (p h F : Nat) (t : PTree) (ht : ∀ q ∈ t.list, q.Prime) (hF : t.prod = F) (h0 : 1 < p) (hp : p ≤ F * F)
    (hc : t.check p h = true) : p.Prime := by
  by_contra hn
  have hne : p ≠ 1 := by omega
  have hr := Nat.minFac_prime hne
  have hsq := Nat.minFac_sq_le_self (by omega) hn
  have h1 := t.check_dvd p h F ht hF h0 hc _ hr (Nat.minFac_dvd p)
  generalize hrr : p.minFac = r at *
  have h2 := Nat.le_of_dvd (by have := hr.one_lt; omega) h1
  have h3 : F < r := by have := hr.one_lt; omega
  have h4 : F * F < r ^ 2 := by rw [pow_two]; exact Nat.mul_lt_mul'' h3 h3
  omega

/-- The test of Brillhart, Lehmer and Selfridge: the same with a number that is more than the cube root of `p`; the predecessor of `p`, written to the base `F`, has
the digits 1, the sum and the product of two numbers if `p` is a product. -/
theorem bls (p h F R : Nat) (t : PTree) (ht : ∀ q ∈ t.list, q.Prime) (hF : t.prod = F) (h0 : 1 < p) (hR : p = F * R + 1) (hp : R < F * F)
    (hs : ∀ d, (R % F) ^ 2 ≠ 4 * (R / F) + d ^ 2) (hc : t.check p h = true) : p.Prime := by
  by_contra hn
  have hne : p ≠ 1 := by omega
  have hr := Nat.minFac_prime hne
  have hd := Nat.minFac_dvd p
  have hsq := Nat.minFac_sq_le_self (by omega) hn
  have h1 := t.check_dvd p h F ht hF h0 hc _ hr hd
  generalize hrr : p.minFac = r at *
  obtain ⟨a, ha⟩ := h1
  obtain ⟨c, hcp⟩ := hd
  have hr2 := hr.two_le
  have hFpos : 0 < F := by
    rcases Nat.eq_zero_or_pos F with h | h
    · subst h; omega
    · exact h
  have ea : r = F * a + 1 := by omega
  have hcr : r ≤ c := by
    rw [hcp, pow_two] at hsq
    exact Nat.le_of_mul_le_mul_left hsq (by omega)
  have hca : p = F * (a * c) + c := by rw [hcp, ea]; ring
  obtain ⟨b, hb⟩ : F ∣ c - 1 := by
    have e : c - 1 = F * R - F * (a * c) := by omega
    rw [e, ← Nat.mul_sub]
    exact Dvd.intro _ rfl
  have eb : c = F * b + 1 := by omega
  have ha0 : 0 < a := by rcases Nat.eq_zero_or_pos a with h | h; · subst h; omega
                         · exact h
  have hb0 : 0 < b := by rcases Nat.eq_zero_or_pos b with h | h; · subst h; omega
                         · exact h
  have eR : R = F * (a * b) + (a + b) := by
    have : F * R = F * (F * (a * b) + (a + b)) := by
      have : F * R + 1 = F * (F * (a * b) + (a + b)) + 1 := by rw [← hR, hca, eb]; ring
      omega
    exact Nat.eq_of_mul_eq_mul_left hFpos this
  have hab : a * b < F := by
    have : F * (a * b) < F * F := by omega
    exact Nat.lt_of_mul_lt_mul_left this
  have hsum : a + b ≤ a * b + 1 := by
    obtain ⟨a', rfl⟩ : ∃ a', a = a' + 1 := ⟨a - 1, by omega⟩
    obtain ⟨b', rfl⟩ : ∃ b', b = b' + 1 := ⟨b - 1, by omega⟩
    have : (a' + 1) * (b' + 1) = a' * b' + a' + b' + 1 := by ring
    omega
  have hlt : a + b < F := by
    rcases Nat.lt_or_ge (a + b) F with h | h
    · exact h
    · have e1 : a * b + 1 = F := by omega
      have : F * (a * b) + F ≤ F * F := by
        have : F * (a * b + 1) = F * F := by rw [e1]
        rw [Nat.mul_add, Nat.mul_one] at this
        omega
      have e2 : F * (a * b) + F = F * F := by
        have : F * (a * b + 1) = F * F := by rw [e1]
        rw [Nat.mul_add, Nat.mul_one] at this
        exact this
      omega
  have m1 : R % F = a + b := by rw [eR, Nat.mul_add_mod, Nat.mod_eq_of_lt hlt]
  have m2 : R / F = a * b := by rw [eR, Nat.mul_add_div hFpos, Nat.div_eq_of_lt hlt, Nat.add_zero]
  rcases Nat.le_total a b with h | h
  · refine hs (b - a) ?_
    rw [m1, m2]
    obtain ⟨d, rfl⟩ := Nat.exists_eq_add_of_le h
    rw [Nat.add_sub_cancel_left]; ring
  · refine hs (a - b) ?_
    rw [m1, m2]
    obtain ⟨d, rfl⟩ := Nat.exists_eq_add_of_le h
    rw [Nat.add_sub_cancel_left]; ring

end Verif.Proof
