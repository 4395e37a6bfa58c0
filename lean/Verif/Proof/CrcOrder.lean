import Mathlib.Dynamics.PeriodicPts.Defs
import Mathlib.Tactic.NormNum.Prime
import Verif.Proof.Crc
import Verif.Proof.XLin

/-! The division step of CRC-32 has the period `2^32 - 1`: the polynomial is primitive. -/

namespace Verif.Proof
open Verif.Model Verif.Spec

theorem crcU_lin : XLin crcU := XLin.xor (xlin_shr 1) (xlin_bit 0 _)

theorem crcU_iter_lin (n : Nat) : XLin (crcU^[n]) := by
  induction n with
  | zero => exact xlin_id
  | succ n ih => exact fun a b => by rw [Function.iterate_succ_apply, Function.iterate_succ_apply, Function.iterate_succ_apply, crcU_lin, ih]

/-- Multiplication of residues in the reflected order. -/
def crcMul (a b : U32) : U32 := xsum 32 (fun i => if a.getLsbD (31 - i) then crcU^[i] b else 0#32)

/-- The residue of `1`. -/
def crcOne : U32 := 0x80000000#32

theorem crcMul_left (b : U32) : XLin (fun a => crcMul a b) := xlin_xsum 32 _ (fun _ => xlin_bit _ _)
theorem crcMul_right (a : U32) : XLin (fun b => crcMul a b) := xlin_xsum 32 _ (fun _ => xlin_ite _ (crcU_iter_lin _))

theorem crcMul_twoPow (j : Nat) (hj : j < 32) (b : U32) : crcMul (BitVec.twoPow 32 j) b = crcU^[31 - j] b := by
  rw [crcMul, xsum_congr (g := fun i => if i = 31 - j then crcU^[i] b else 0#32) 32, xsum_single _ (31 - j) _ 32 (by omega), if_pos rfl]
  · intro i hi; exact if_neg hi
  · intro i hi
    rw [BitVec.getLsbD_twoPow]
    by_cases h : i = 31 - j
    · rw [if_pos h, if_pos]; simp; omega
    · rw [if_neg h, if_neg]; simp; omega

theorem crcMul_poly (b : U32) : crcMul 0xEDB88320#32 b = crcU^[32] b :=
  xlin_ext (crcMul_right _) (crcU_iter_lin 32) (by decide +kernel) b

theorem crcU_mul (a b : U32) : crcMul (crcU a) b = crcU (crcMul a b) := by
  refine xlin_ext (f := fun a => crcMul (crcU a) b) (g := fun a => crcU (crcMul a b)) (XLin.comp (crcMul_left b) crcU_lin)
    (XLin.comp crcU_lin (crcMul_left b)) ?_ a
  intro j hj
  show crcMul (crcU (BitVec.twoPow 32 j)) b = crcU (crcMul (BitVec.twoPow 32 j) b)
  rw [crcMul_twoPow j hj, ← Function.iterate_succ_apply' crcU]
  cases j with
  | zero => rw [show crcU (BitVec.twoPow 32 0) = 0xEDB88320#32 by decide, crcMul_poly]
  | succ j =>
    have : ∀ j, j < 31 → crcU (BitVec.twoPow 32 (j + 1)) = BitVec.twoPow 32 j := by decide +kernel
    rw [this j (by omega), crcMul_twoPow j (by omega)]
    congr 1; omega

theorem crcMul_iter (n : Nat) (b : U32) : crcMul (crcU^[n] crcOne) b = crcU^[n] b := by
  induction n with
  | zero =>
    show crcMul crcOne b = b
    rw [show crcOne = BitVec.twoPow 32 31 by decide, crcMul_twoPow 31 (by decide)]; rfl
  | succ n ih => rw [Function.iterate_succ_apply', crcU_mul, ih, Function.iterate_succ_apply']

/-- The residue of `x^n`. -/
def crcPow (n : Nat) : U32 := crcU^[n] crcOne

theorem crcPow_double (n : Nat) : crcPow (2 * n) = crcMul (crcPow n) (crcPow n) := by
  rw [crcPow, crcPow, crcMul_iter, ← Function.iterate_add_apply, two_mul]

/-- One binary digit of the exponent. -/
def crcDigit (b : Bool) (e : U32) : U32 := if b then crcU (crcMul e e) else crcMul e e

theorem crcDigit_pow (b : Bool) (n : Nat) : crcDigit b (crcPow n) = crcPow (2 * n + b.toNat) := by
  cases b
  · rw [crcDigit, if_neg (by decide), ← crcPow_double]; rfl
  · rw [crcDigit, if_pos rfl, ← crcPow_double, crcPow, ← Function.iterate_succ_apply' crcU]; rfl

theorem crcChain (L : List U32) (n : Nat) (hn : n < 2 ^ 32) (h0 : L.getD 0 0#32 = crcOne)
    (hs : ∀ i, i < 32 → L.getD (i + 1) 0#32 = crcDigit (n.testBit (31 - i)) (L.getD i 0#32)) : crcPow n = L.getD 32 0#32 := by
  have key : ∀ i, i ≤ 32 → L.getD i 0#32 = crcPow (n / 2 ^ (32 - i)) := by
    intro i
    induction i with
    | zero => intro _; rw [h0, Nat.div_eq_of_lt hn]; rfl
    | succ i ih =>
      intro hi
      rw [hs i (by omega), ih (by omega), crcDigit_pow]
      congr 1
      rw [show 32 - i = (31 - i) + 1 by omega, show 32 - (i + 1) = 31 - i by omega, pow_succ, ← Nat.div_div_eq_div_mul,
        Nat.testBit_eq_decide_div_mod_eq]
      have := Nat.div_add_mod (n / 2 ^ (31 - i)) 2
      rcases Nat.mod_two_eq_zero_or_one (n / 2 ^ (31 - i)) with h | h <;> simp [h] <;> omega
  rw [key 32 (le_refl _)]; simp

/-- Values of `crcPow` along the binary digits of `(2^32 - 1) / 3`. -/
def crcChain3 : List U32 := [
  0x80000000#32, 0x80000000#32, 0x40000000#32, 0x20000000#32, 0x04000000#32, 0x00200000#32, 0x00000400#32, 0x958424a2#32, 0xf44f2413#32, 0x5d46b830#32, 0xe15528e5#32,
  0x400a5936#32, 0x4a625cd1#32, 0x2b1a9480#32, 0x3fc6efd3#32, 0x330eb6fb#32, 0xeba0264a#32, 0xebac76ac#32, 0xaba85d50#32, 0xfa128581#32, 0xb8678921#32, 0xca97c8f0#32,
  0xa121b3bf#32, 0xb1f4ed81#32, 0x4281464d#32, 0x9914990e#32, 0xed9796a7#32, 0xd6e0cbee#32, 0x98aba02d#32, 0x889203ae#32, 0x0ecb08a8#32, 0x3954c4c2#32, 0xc736eb52#32]

/-- Values of `crcPow` along the binary digits of `(2^32 - 1) / 5`. -/
def crcChain5 : List U32 := [
  0x80000000#32, 0x80000000#32, 0x80000000#32, 0x40000000#32, 0x10000000#32, 0x02000000#32, 0x00080000#32, 0x00000040#32, 0x1c26a370#32, 0x2ef62886#32, 0xb9432600#32,
  0x6c820349#32, 0x56a92869#32, 0x667ef113#32, 0x402436d6#32, 0xfcc1a385#32, 0xc1a99cf7#32, 0x16d3418b#32, 0x68a1ad9f#32, 0x4bdab5fa#32, 0x3b2be47a#32, 0x5a345a10#32,
  0x07368de9#32, 0x9d7491a5#32, 0xc6a740b1#32, 0xddedfe3f#32, 0xdd3ea802#32, 0x5ffb588f#32, 0x07d548e2#32, 0x12183e96#32, 0x03349540#32, 0x4e21f476#32, 0x84011278#32]

/-- Values of `crcPow` along the binary digits of `(2^32 - 1) / 17`. -/
def crcChain17 : List U32 := [
  0x80000000#32, 0x80000000#32, 0x80000000#32, 0x80000000#32, 0x80000000#32, 0x40000000#32, 0x10000000#32, 0x01000000#32, 0x00010000#32, 0x00000002#32, 0xc5b428ef#32,
  0x60c76fe0#32, 0x9e36506b#32, 0x9c018645#32, 0xeda1054e#32, 0x5fc15c94#32, 0xe01f9dcf#32, 0xcc299acc#32, 0xc45fbca8#32, 0x0135087e#32, 0x868460b5#32, 0xc43aebbc#32,
  0x0c446b60#32, 0x8cab7481#32, 0xaf69585a#32, 0x756dfd77#32, 0x7a453053#32, 0x9e29bbd6#32, 0xf1d31ca2#32, 0x604c8e8c#32, 0x079c4bf2#32, 0x75b99178#32, 0x8c283ca0#32]

/-- Values of `crcPow` along the binary digits of `(2^32 - 1) / 257`. -/
def crcChain257 : List U32 := [
  0x80000000#32, 0x80000000#32, 0x80000000#32, 0x80000000#32, 0x80000000#32, 0x80000000#32, 0x80000000#32, 0x80000000#32, 0x80000000#32, 0x40000000#32, 0x10000000#32,
  0x01000000#32, 0x00010000#32, 0x00000001#32, 0xb8bc6765#32, 0x9ba54c6f#32, 0x01b5fd1d#32, 0x4ed61b5f#32, 0x16d5d82a#32, 0x278d37c1#32, 0xf4e5307f#32, 0x5df97b6b#32,
  0x8ccf5292#32, 0xba1c8c47#32, 0x3ef534d3#32, 0x655c077a#32, 0x2d3f59b5#32, 0x19772432#32, 0xc54796e1#32, 0xac6d574f#32, 0xf9a08e57#32, 0x8769f32a#32, 0x351c22c9#32]

/-- Values of `crcPow` along the binary digits of `(2^32 - 1) / 65537`. -/
def crcChain65537 : List U32 := [
  0x80000000#32, 0x80000000#32, 0x80000000#32, 0x80000000#32, 0x80000000#32, 0x80000000#32, 0x80000000#32, 0x80000000#32, 0x80000000#32, 0x80000000#32, 0x80000000#32,
  0x80000000#32, 0x80000000#32, 0x80000000#32, 0x80000000#32, 0x80000000#32, 0x80000000#32, 0x40000000#32, 0x10000000#32, 0x01000000#32, 0x00010000#32, 0x00000001#32,
  0xb8bc6765#32, 0x9ba54c6f#32, 0x01b5fd1d#32, 0xcad38e8f#32, 0x7406fa95#32, 0x03f9f863#32, 0xc78c44a1#32, 0xc84f001c#32, 0x9a8f75c0#32, 0x13fca91e#32, 0xdc7b5c5f#32]

/-- Values of `crcPow` along the binary digits of `(2^32 - 1) / 1`. -/
def crcChain1 : List U32 := [
  0x80000000#32, 0x40000000#32, 0x10000000#32, 0x01000000#32, 0x00010000#32, 0x00000001#32, 0xb8bc6765#32, 0x9ba54c6f#32, 0x01b5fd1d#32, 0xcad38e8f#32, 0x7406fa95#32,
  0x03f9f863#32, 0xc78c44a1#32, 0xc84f001c#32, 0x9a8f75c0#32, 0x13fca91e#32, 0xdc7b5c5f#32, 0x606c5e34#32, 0xf6b53986#32, 0x63fd82d2#32, 0xe4a90215#32, 0xd91bdb88#32,
  0x2bad0e9a#32, 0xbfbcf49c#32, 0xaec31a2f#32, 0x5c9cbdde#32, 0x9d574428#32, 0x8a39e3c1#32, 0x85352d3c#32, 0x291a6054#32, 0x53664be1#32, 0x52b55e39#32, 0x80000000#32]
theorem crcPow_period : crcPow 4294967295 = crcOne := by
  rw [crcChain crcChain1 4294967295 (by decide) (by decide) (by decide +kernel)]; decide
theorem crcPow_3 : crcPow 1431655765 ≠ crcOne := by
  rw [crcChain crcChain3 1431655765 (by decide) (by decide) (by decide +kernel)]; decide
theorem crcPow_5 : crcPow 858993459 ≠ crcOne := by
  rw [crcChain crcChain5 858993459 (by decide) (by decide) (by decide +kernel)]; decide
theorem crcPow_17 : crcPow 252645135 ≠ crcOne := by
  rw [crcChain crcChain17 252645135 (by decide) (by decide) (by decide +kernel)]; decide
theorem crcPow_257 : crcPow 16711935 ≠ crcOne := by
  rw [crcChain crcChain257 16711935 (by decide) (by decide) (by decide +kernel)]; decide
theorem crcPow_65537 : crcPow 65535 ≠ crcOne := by
  rw [crcChain crcChain65537 65535 (by decide) (by decide) (by decide +kernel)]; decide

theorem crc_primes (p : Nat) (hp : p.Prime) (h : p ∣ 4294967295) : p = 3 ∨ p = 5 ∨ p = 17 ∨ p = 257 ∨ p = 65537 := by
  have e : (4294967295 : Nat) = 3 * (5 * (17 * (257 * 65537))) := by norm_num
  rw [e] at h
  have q : ∀ a, a.Prime → p ∣ a → p = a := fun a ha hd => (Nat.prime_dvd_prime_iff_eq hp ha).mp hd
  rcases hp.dvd_mul.mp h with h | h
  · exact Or.inl (q 3 (by norm_num) h)
  rcases hp.dvd_mul.mp h with h | h
  · exact Or.inr (Or.inl (q 5 (by norm_num) h))
  rcases hp.dvd_mul.mp h with h | h
  · exact Or.inr (Or.inr (Or.inl (q 17 (by norm_num) h)))
  rcases hp.dvd_mul.mp h with h | h
  · exact Or.inr (Or.inr (Or.inr (Or.inl (q 257 (by norm_num) h))))
  · exact Or.inr (Or.inr (Or.inr (Or.inr (q 65537 (by norm_num) h))))

/-- The order of `x` modulo the polynomial is `2^32 - 1`. -/
theorem crcPow_one_iff (n : Nat) : crcPow n = crcOne ↔ 4294967295 ∣ n := by
  have hp : Function.IsPeriodicPt crcU 4294967295 crcOne := crcPow_period
  have hd : Function.minimalPeriod crcU crcOne ∣ 4294967295 := hp.minimalPeriod_dvd
  have hm : Function.minimalPeriod crcU crcOne = 4294967295 := by
    obtain ⟨k, hk⟩ := hd
    by_cases h1 : k = 1
    · rw [h1, mul_one] at hk; exact hk.symm
    · exfalso
      have hpr := Nat.minFac_prime h1
      obtain ⟨r, hr⟩ := Nat.minFac_dvd k
      have hN : 4294967295 = k.minFac * (Function.minimalPeriod crcU crcOne * r) := by
        rw [hk, Nat.mul_left_comm, ← hr]
      have hper : crcPow (Function.minimalPeriod crcU crcOne * r) = crcOne :=
        (Function.isPeriodicPt_minimalPeriod crcU crcOne).mul_const r
      generalize Function.minimalPeriod crcU crcOne * r = d at hN hper
      rcases crc_primes _ hpr ⟨d, hN⟩ with h | h | h | h | h <;> rw [h] at hN
      · exact crcPow_3 ((show d = 1431655765 by omega) ▸ hper)
      · exact crcPow_5 ((show d = 858993459 by omega) ▸ hper)
      · exact crcPow_17 ((show d = 252645135 by omega) ▸ hper)
      · exact crcPow_257 ((show d = 16711935 by omega) ▸ hper)
      · exact crcPow_65537 ((show d = 65535 by omega) ▸ hper)
  rw [← hm]
  exact Function.isPeriodicPt_iff_minimalPeriod_dvd

end Verif.Proof
