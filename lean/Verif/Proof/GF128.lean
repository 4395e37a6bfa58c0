import Mathlib.FieldTheory.Finite.Extension
import Mathlib.RingTheory.AdjoinRoot
import Mathlib.Algebra.Polynomial.SpecificDegree
import Mathlib.Tactic.Ring
import Mathlib.Tactic.LinearCombination
import Mathlib.Tactic.ComputeDegree
import Verif.Proof.Ghash

/-! The blocks of GCM with exclusive or and block multiplication form a field: the quotient of the polynomials over the field of two elements by
`x^128 + x^7 + x^2 + x + 1`, which is irreducible (Rabin's criterion). -/

namespace Verif.Proof

open Polynomial Verif.Spec Verif.Spec.Gcm

local instance : Fact (Nat.Prime 2) := ⟨Nat.prime_two⟩

/-- `x^128 + x^7 + x^2 + x + 1` -/
noncomputable def gP : (ZMod 2)[X] := X ^ 128 + X ^ 7 + X ^ 2 + X + 1

theorem gP_degree : gP.natDegree = 128 := by
  unfold gP; compute_degree!

theorem gP_monic : gP.Monic := by
  unfold gP; monicity!

theorem gP_ne : gP ≠ 0 := gP_monic.ne_zero

/-- The quotient ring. -/
abbrev GF := AdjoinRoot gP

/-- The class of `x`. -/
noncomputable def gx : GF := AdjoinRoot.root gP

theorem mk_x : AdjoinRoot.mk gP X = gx := AdjoinRoot.mk_X

theorem gf_two : (2 : GF) = 0 := by
  have h := map_ofNat (AdjoinRoot.of gP) 2
  rw [← h, show (OfNat.ofNat 2 : ZMod 2) = 0 from rfl, map_zero]

theorem gf_add_self (a : GF) : a + a = 0 := by
  rw [← two_mul, gf_two, zero_mul]

theorem gf_neg (a : GF) : -a = a := by
  rw [neg_eq_iff_add_eq_zero, gf_add_self]

theorem gx_pow : gx ^ 128 = gx ^ 7 + gx ^ 2 + gx + 1 := by
  have h : AdjoinRoot.mk gP gP = 0 := AdjoinRoot.mk_self
  have h2 : AdjoinRoot.mk gP gP = gx ^ 128 + gx ^ 7 + gx ^ 2 + gx + 1 := by
    conv_lhs => arg 2; unfold gP
    rw [map_add, map_add, map_add, map_add, map_pow, map_pow, map_pow, map_one, mk_x]
  rw [h2] at h
  linear_combination h - gf_two * (gx ^ 7 + gx ^ 2 + gx + 1)

attribute [irreducible] gP

/-- The polynomial of a bit vector, bit `i` being the coefficient of `x^i`. -/
noncomputable def bpoly (a : BitVec 128) : (ZMod 2)[X] := ∑ i ∈ Finset.range 128, if a.getLsbD i then X ^ i else 0

/-- Its class. -/
noncomputable def el (a : BitVec 128) : GF := ∑ i ∈ Finset.range 128, if a.getLsbD i then gx ^ i else 0

theorem el_mk (a : BitVec 128) : el a = AdjoinRoot.mk gP (bpoly a) := by
  rw [el, bpoly, map_sum]
  apply Finset.sum_congr rfl
  intro i _
  split
  · rw [map_pow, mk_x]
  · rw [map_zero]

theorem bpoly_coeff (a : BitVec 128) (i : Nat) : (bpoly a).coeff i = if a.getLsbD i then 1 else 0 := by
  rw [bpoly, finsetSum_coeff]
  have : ∀ j ∈ Finset.range 128, (if a.getLsbD j then (X : (ZMod 2)[X]) ^ j else 0).coeff i = if j = i then (if a.getLsbD i then 1 else 0) else 0 := by
    intro j _
    by_cases h : j = i
    · subst h; split <;> simp
    · split <;> simp [coeff_X_pow, Ne.symm h]
  rw [Finset.sum_congr rfl this]
  by_cases h : i < 128
  · simp [h]
  · rw [BitVec.getLsbD_of_ge _ _ (by omega)]; simp

theorem bpoly_degree (a : BitVec 128) : (bpoly a).natDegree < 128 := by
  refine Nat.lt_of_le_of_lt ((natDegree_le_iff_coeff_eq_zero (n := 127)).mpr ?_) (by decide)
  intro i hi
  rw [bpoly_coeff, BitVec.getLsbD_of_ge _ _ (by omega), if_neg (by decide)]

theorem el_xor (a b : BitVec 128) : el (a ^^^ b) = el a + el b := by
  rw [el, el, el, ← Finset.sum_add_distrib]
  apply Finset.sum_congr rfl
  intro i _
  rw [BitVec.getLsbD_xor]
  cases a.getLsbD i <;> cases b.getLsbD i <;> simp [gf_add_self]

theorem el_zero : el 0#128 = 0 := by
  rw [el]; apply Finset.sum_eq_zero; intro i _; simp

theorem el_shl (v : BitVec 128) : el (v <<< 1) + (if v.getLsbD 127 then gx ^ 128 else 0) = gx * el v := by
  rw [el, el, Finset.mul_sum, Finset.sum_range_succ' _ 127, Finset.sum_range_succ _ 127]
  have h0 : (v <<< 1).getLsbD 0 = false := by simp
  rw [h0]
  congr 1
  · rw [if_neg (by decide), add_zero]
    apply Finset.sum_congr rfl
    intro i hi
    have : (v <<< 1).getLsbD (i + 1) = v.getLsbD i := by
      have := Finset.mem_range.mp hi
      rw [BitVec.getLsbD_shiftLeft]; simp; omega
    rw [this]
    split <;> ring
  · split <;> ring

theorem el_87 : el 0x87#128 = gx ^ 128 := by
  rw [gx_pow, el]
  have h : ∀ i ∈ Finset.range 128, (if (0x87#128).getLsbD i then gx ^ i else 0) = if i ∈ ({0, 1, 2, 7} : Finset Nat) then gx ^ i else 0 := by
    have : ∀ i, i < 128 → ((0x87#128).getLsbD i = true ↔ i ∈ ({0, 1, 2, 7} : Finset Nat)) := by decide +kernel
    intro i hi
    simp only [this i (Finset.mem_range.mp hi)]
  rw [Finset.sum_congr rfl h, Finset.sum_ite_mem, Finset.inter_eq_right.mpr (by decide)]
  simp
  ring

theorem el_mulx (v : BitVec 128) : el (mulx v) = gx * el v := by
  rw [mulx, el_xor, ← el_shl]
  congr 1
  split
  · exact el_87
  · exact el_zero

theorem el_mulxN (n : Nat) (v : BitVec 128) : el (mulxN n v) = gx ^ n * el v := by
  induction n with
  | zero => simp [mulxN]
  | succ n ih => rw [mulxN, el_mulx, ih]; ring

theorem el_xsum (n : Nat) (f : Nat → BitVec 128) : el (xsum n f) = ∑ i ∈ Finset.range n, el (f i) := by
  induction n with
  | zero => simp [xsum, el_zero]
  | succ n ih => rw [xsum, el_xor, ih, Finset.sum_range_succ]

theorem el_pmul (a b : BitVec 128) : el (pmul a b) = el a * el b := by
  rw [pmul, el_xsum]
  conv_rhs => rw [el]
  rw [Finset.sum_mul]
  apply Finset.sum_congr rfl
  intro i _
  split
  · exact el_mulxN i b
  · rw [el_zero, zero_mul]

theorem el_inj {a b : BitVec 128} (h : el a = el b) : a = b := by
  rw [el_mk, el_mk, AdjoinRoot.mk_eq_mk] at h
  have hz : bpoly a - bpoly b = 0 := by
    apply eq_zero_of_dvd_of_natDegree_lt h
    rw [gP_degree]
    exact lt_of_le_of_lt (natDegree_sub_le _ _) (max_lt (bpoly_degree a) (bpoly_degree b))
  apply BitVec.eq_of_getLsbD_eq
  intro i _
  have := congrArg (fun p => p.coeff i) (sub_eq_zero.mp hz)
  simp only [bpoly_coeff] at this
  cases h1 : a.getLsbD i <;> cases h2 : b.getLsbD i <;> simp_all

/-! ### In the order of the standard -/

/-- The element of a block: the leftmost bit is the coefficient of `1`. -/
noncomputable def elem (x : BitVec 128) : GF := el x.reverse

theorem elem_xor (a b : BitVec 128) : elem (a ^^^ b) = elem a + elem b := by rw [elem, reverse_xor, el_xor]; rfl
theorem elem_mul (a b : BitVec 128) : elem (mul a b) = elem a * elem b := by
  rw [elem, mul_pmul, BitVec.reverse_reverse_eq, el_pmul]; rfl
theorem elem_inj {a b : BitVec 128} (h : elem a = elem b) : a = b := by
  have := congrArg BitVec.reverse (el_inj h)
  rwa [BitVec.reverse_reverse_eq, BitVec.reverse_reverse_eq] at this

/-- The block of `1`. -/
def gOne : BitVec 128 := 0x80#128 <<< 120
/-- The block of `x`. -/
def gX : BitVec 128 := 0x40#128 <<< 120

theorem el_twoPow (i : Nat) (hi : i < 128) : el (BitVec.twoPow 128 i) = gx ^ i := by
  rw [el, Finset.sum_eq_single i]
  · simp [hi]
  · intro j _ hj
    simp [BitVec.getLsbD_twoPow, Ne.symm hj]
  · intro h; exact absurd (Finset.mem_range.mpr hi) h

theorem elem_one : elem gOne = 1 := by
  have h : gOne.reverse = BitVec.twoPow 128 0 := by decide +kernel
  rw [elem, h, el_twoPow 0 (by decide), pow_zero]
theorem elem_x : elem gX = gx := by
  have h : gX.reverse = BitVec.twoPow 128 1 := by decide +kernel
  rw [elem, h, el_twoPow 1 (by decide), pow_one]
theorem elem_zero : elem 0#128 = 0 := by
  have h : (0#128).reverse = 0#128 := by decide +kernel
  rw [elem, h, el_zero]

/-! ### Irreducibility -/

/-- `x^(2^i)` for `i = 0 .. 128`, as blocks. -/
def frobList : List (BitVec 128) := [
  0x40000000000000000000000000000000#128, 0x20000000000000000000000000000000#128, 0x8000000000000000000000000000000#128, 0x800000000000000000000000000000#128,
  0x8000000000000000000000000000#128, 0x800000000000000000000000#128, 0x8000000000000000#128, 0xe1000000000000000000000000000000#128,
  0xa8020000000000000000000000000000#128, 0x88800008000000000000000000000000#128, 0x80808000000000800000000000000000#128, 0x80008000800000000000000000008000#128,
  0x800000008000000080000000e1000000#128, 0x61000000000000005753840000000000#128, 0x13f3efc9753840000000000000000000#128, 0x20aaa0aa8aaa0822a220a8020000000#128,
  0xef71e969867f1888690888888008008#128, 0xe19e18aee34963c96361282a4b028061#128, 0x785720fb8871865780a6b48cd90a96d1#128, 0x2d88cd0cb4ac0b531aa6aeed729aa8ed#128,
  0x9d417fa61f65872a7bfa7acbff7bf580#128, 0xb79a60390f91418442aac91ac0c52d88#128, 0xb2647d77e1a28de9c9ea5b79eac8a5c1#128, 0xb5a27b9f018a8b1cfbbd41a96f89b5c1#128,
  0xb812f046d6c9e958b286b56ae8251fe3#128, 0x9c32f33e16afd2976599aea96fd221dd#128, 0x22432c6ec1cdb55ab0ac8660bc1bdc34#128, 0x941ccfc3a9964ef84c4fe3cac43f6f24#128,
  0xca397a34a3f7eda541facf68c22c70a8#128, 0x98cb5ab9e31ce8915144b4e3dd7667d3#128, 0x436f1cf28e241ddfe614f342cee58ccb#128, 0xd447b1696790646493f8f4b277b3b06#128,
  0x54a0a9601f5eee84180dcbba9950b41e#128, 0x4de588da952e507bf0cc9d6c4404c373#128, 0xe5e71bb22de5001fa5a4890bb4d8b53#128, 0x2ebb098302a3680ee4700e3207ecafcb#128,
  0x25e8ff5e0055dd90103d8b8387440d04#128, 0x7b26a5ce8f4657a57535ce5ae2784638#128, 0x1f65c18795b5cb8347f4051d1a5cd557#128, 0xb07728cee03947744549a13f3a757ffb#128,
  0x4853d688639329e8717b2f6dd12a2a18#128, 0x1557933238ec620a36cd08f5167dbbe5#128, 0x9908abb046ebdee7cd32cdae007043e3#128, 0xa130c91a4110a1c770289d5e9ae5eb77#128,
  0x377e04f142dcfd9b9269c56b9bbe01cb#128, 0x12880c1a5d5b58be5660dae3faa1df26#128, 0x555ae6d0da8bc5d56299dd997c90508e#128, 0x78dcd0eef63684661385220e9be643f5#128,
  0xbf81d79b681eb87f1840494ee86d68c7#128, 0x367b8429a883e1daf3134227831f3df#128, 0x6566f1bd032c6e16a7bd8d175a714cb2#128, 0xdb2710668fd84d13ef212d779431aeb2#128,
  0x692ed23988cad9c9b616ef174b65be90#128, 0xc4205b1a258cdd336c2c02e38ac11206#128, 0xfa0946c96284c5d57dcd49e325281a3c#128, 0xef061d18dc8af3dfb2234ad1a349bf6f#128,
  0xce981e35ae0dc847c9bd2c2ac24a402e#128, 0x15aaeacec86144dd41e6280d88c02eed#128, 0xace9dbeef679a0728561f1422ee72528#128, 0x699b5ad1f25d14e6b4efade7522be0f9#128,
  0x2226150e1942b16745c23c5e41707c1e#128, 0x5cd315661f6f7bbb6ac191dcbf0f6b79#128, 0xf2176b4964a57635aeeafc7ec8362bbc#128, 0x354f8595ec875581a181858074d4726f#128,
  0x6f9945a9e519a7229d4c1ad657f8a686#128, 0xa6547e1b63494270c3d302b7670cb93e#128, 0x3dc56ce9bea6fe2bca6ff45b8c7ea343#128, 0x292586a6284cd3aaff71fd2b15b5a4c7#128,
  0x562ae9f5d02642d49f3f080f892211fd#128, 0x56f0d1c87c63aaf697e28236338ff22e#128, 0xac39a95e530cbd2277395dde8852b4ef#128, 0x37e9d3f4379c3cbb93eb3b6a760e9f8c#128,
  0x9823eb3e3b72089f2fc8d277b8f0bf53#128, 0x766c05ab72402f4932fffedcecc06d63#128, 0xdd9aeca000210297bd81b9403e20d2df#128, 0xc444a78bc0d634400d435612dac2483a#128,
  0xbcdadc6d27d8d3006a2b6b6622812d7b#128, 0x4637bc74001c8ac45634538328c0f138#128, 0x1bda5786f1695f2d9af1dbe0545f2955#128, 0x7669665f7c02c37891fe5392f858b75d#128,
  0x5e27788143e15420ee953b2d4cabc59e#128, 0x998fba95e3f81ac8dc9307fe6f5b2e53#128, 0xa2b722231ebd8221ce8e45a8984fcb49#128, 0xb7973bfd607323fbe0cdb2368da4a4a0#128,
  0x5d7a5bb02210b70099da0122a722059a#128, 0xdce474a33289001ef72dd81e9a11266b#128, 0x8c6972ea34058b59b86393058a266414#128, 0x1c551edf5c813cb32fcf1e04e6e2613e#128,
  0x60c42fb6d5fbf292b5c6075c2cf30349#128, 0x22a7bd56589f6535eceb3e533e052eaa#128, 0xc3a11f9613e149e1bbc3d291e2e5b5dd#128, 0xdafac54f4c6070af51546f69082db61c#128,
  0xe9cf1574d6a6c218a44126ca02a2dbf7#128, 0xcd02d8e98804a38fb22677366a204261#128, 0xaa301e2ec7617120e63f1e30b044a6f9#128, 0xb9e65740d5fb553c4cbe107a85248c36#128,
  0xdebb046b71ae153b531960a283fb4702#128, 0x85411decb270c794db0fc890ae57de84#128, 0x2a8ab4d60f034a2465cf41f1ae393318#128, 0x3ee39d1c6663f2ff6b6d5d7ca9119f45#128,
  0xaa9c0a807dbcf3ad87daaf8dcc5846d1#128, 0x8fb58c8bff4cb5da373bf185927c0265#128, 0x1b83535ac077e5b18c2005adca2c84e3#128, 0x197bce1a22310942bdaf34e3091a1d5f#128,
  0x6464014e790495d59cea8d6913dcdf18#128, 0xca7dbf9ff1d8d21aad0b4e3d18327547#128, 0xc5eaee4e263ddfe46d67af1a87e7fefd#128, 0x205aed936cf7c3f91d09c7a2a92c2e#128,
  0xb8968f5ee66af5d7b914d75220e3eecd#128, 0xf07e05941a5bcd62b638ffd5e9a52bb0#128, 0x46a277ddd4228cdf113a49a16a5e509c#128, 0x532f01730288c9b1109f231beb6440f7#128,
  0xab26eafada1fbd6243b422e8d8c25ee3#128, 0x4aef7084e6966d3978addbe4a1b1af55#128, 0x833547603428c348073beabf4366e57d#128, 0x16b7d35a6395d440e66daae62761d18e#128,
  0xb9eeeca089f5e5ee762f6071fce745d7#128, 0x35c8f66c4af0bdd7d08f3d474459b659#128, 0x36ee41547366d4d5ccf0d126e200c90c#128, 0xa3313c7cfac5a806ad5438287b8226fb#128,
  0x9de8f5fe47d524519fb0d52c96a68410#128, 0x60f2901470dd606182981d04b9186186#128, 0xa5ae586d815ec618867625c71e534d34#128, 0x1994ed4a7cab35d7575149610cb2cb2c#128,
  0x49f36de7140092dbae792410c38e38e3#128, 0x356dcf3ca28aebaedb6d75d7df7d75d7#128, 0x5aa28a28514514518618618659659659#128, 0x25b6db6db6db6db64924924924924924#128,
  0x40000000000000000000000000000000#128]

theorem frob_check : ∀ i, i < 128 → mul (frobList.getD i 0#128) (frobList.getD i 0#128) = frobList.getD (i + 1) 0#128 := by decide +kernel

theorem frob_pow : ∀ i, i ≤ 128 → elem (frobList.getD i 0#128) = gx ^ 2 ^ i := by
  intro i
  induction i with
  | zero =>
    intro _
    have : frobList.getD 0 0#128 = gX := by decide +kernel
    rw [this, elem_x, pow_zero, pow_one]
  | succ i ih =>
    intro hi
    rw [← frob_check i (by omega), elem_mul, ih (by omega), pow_succ, pow_mul, sq]

theorem gx_frob : gx ^ 2 ^ 128 = gx := by
  have : frobList.getD 128 0#128 = gX := by decide +kernel
  rw [← frob_pow 128 (le_refl _), this, elem_x]

/-- `x^(2^64) - x` is invertible. -/
theorem gx_coprime : ∃ b : GF, (gx ^ 2 ^ 64 - gx) * b = 1 := by
  refine ⟨elem 0x180da934bf53158251c13dbb149f5279#128, ?_⟩
  have : mul (frobList.getD 64 0#128 ^^^ gX) 0x180da934bf53158251c13dbb149f5279#128 = gOne := by decide +kernel
  rw [← elem_one, ← this, elem_mul, elem_xor, frob_pow 64 (by decide), elem_x, sub_eq_add_neg, gf_neg]

theorem mk_gx (n : Nat) : AdjoinRoot.mk gP (X ^ n - X) = gx ^ n - gx := by
  rw [map_sub, map_pow, mk_x]

/-- Rabin's criterion over the field of two elements, for a degree `N` all of whose proper divisors divide `M`. -/
theorem rabin (P B : (ZMod 2)[X]) (N M : Nat) (hN : 0 < N) (hdeg : P.natDegree = N) (hdiv : ∀ d, d ∣ N → d ≠ N → d ∣ M)
    (hP : P ∣ X ^ 2 ^ N - X) (hB : P ∣ (X ^ 2 ^ M - X) * B - 1) : Irreducible P := by
  have hP0 : P ≠ 0 := by rintro rfl; simp at hdeg; omega
  have hnu : ¬ IsUnit P := by
    intro h
    have := natDegree_eq_zero_of_isUnit h
    omega
  obtain ⟨f, hf, hd⟩ := WfDvdMonoid.exists_irreducible_factor hnu hP0
  have hc : Nat.card (ZMod 2) = 2 := by simp
  have hdvd : f.natDegree ∣ N := hf.natDegree_dvd_of_dvd_X_pow_card_pow_sub_X (by rw [hc]; exact hd.trans hP)
  by_cases h : f.natDegree = N
  · obtain ⟨g, hg⟩ := hd
    have hg0 : g ≠ 0 := by rintro rfl; exact hP0 (by rw [hg, mul_zero])
    have hdeg2 := congrArg natDegree hg
    rw [natDegree_mul hf.ne_zero hg0, hdeg, h] at hdeg2
    have hu : IsUnit g := by
      rw [eq_C_of_natDegree_eq_zero (by omega : g.natDegree = 0)] at hg0 ⊢
      rw [isUnit_C, isUnit_iff_ne_zero]
      intro h0
      rw [h0, C_0] at hg0
      exact hg0 rfl
    rw [hg]
    exact (irreducible_mul_isUnit hu).mpr hf
  · exfalso
    have hfM : f ∣ X ^ 2 ^ M - X := by
      have := (hf.natDegree_dvd_iff_dvd_X_pow_card_pow_sub_X (n := M)).mp (hdiv _ hdvd h)
      rwa [hc] at this
    have h1 : f ∣ (X ^ 2 ^ M - X) * B := hfM.mul_right B
    have h2 : f ∣ 1 := (dvd_sub_right h1).mp (hd.trans hB)
    exact hf.not_isUnit (isUnit_of_dvd_one h2)

theorem div128 (d : Nat) (hd : d ∣ 2 ^ 7) (hn : d ≠ 2 ^ 7) : d ∣ 2 ^ 6 := by
  obtain ⟨k, hk, rfl⟩ := (Nat.dvd_prime_pow Nat.prime_two).mp hd
  have : k ≠ 7 := by rintro rfl; exact hn rfl
  exact Nat.pow_dvd_pow 2 (by omega)

theorem gP_dvd (n : Nat) (h : gx ^ n = gx) : gP ∣ X ^ n - X := by
  rw [← AdjoinRoot.mk_eq_zero, mk_gx, h, sub_self]

theorem gP_coprime (n : Nat) (B : (ZMod 2)[X]) (h : (gx ^ n - gx) * AdjoinRoot.mk gP B = 1) : gP ∣ (X ^ n - X) * B - 1 := by
  rw [← mk_gx, ← map_mul, ← map_one (AdjoinRoot.mk gP), AdjoinRoot.mk_eq_mk] at h
  exact h

theorem gP_irreducible : Irreducible gP := by
  obtain ⟨b, hb⟩ := gx_coprime
  obtain ⟨B, rfl⟩ := AdjoinRoot.mk_surjective b
  exact rabin gP B 128 64 (by decide) gP_degree div128 (gP_dvd (2 ^ 128) gx_frob) (gP_coprime (2 ^ 64) B hb)

instance : Fact (Irreducible gP) := ⟨gP_irreducible⟩

end Verif.Proof
