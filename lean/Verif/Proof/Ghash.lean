import Verif.Proof.XLin
import Verif.Proof.Simd
import Verif.Model.Ghash
import Verif.Spec.Gcm
import Verif.Proof.BignumOps

/-! Multiplication in GF(2^128). -/

namespace Verif.Proof
open Verif.Model Verif.Spec Verif.Spec.Gcm

/-! ### `reflect` reverses the bits of every byte -/

theorem bit_shlQ (v : M128) (k j : Nat) (hj : j < 128) : (shlQ v k).getLsbD j = (decide (k ≤ j % 64) && v.getLsbD (j - k)) := by
  simp only [shlQ, packQwords, qwordOf, BitVec.getLsbD_append, BitVec.getLsbD_shiftLeft, BitVec.getLsbD_extractLsb']
  split
  · rename_i h
    rw [Nat.mod_eq_of_lt h]
    by_cases hk : k ≤ j
    · simp [h, hk, Nat.not_lt.mpr hk, show j - k < 64 by omega]
    · simp [hk, Nat.lt_of_not_le hk]
  · rename_i h
    rw [show j % 64 = j - 64 by omega]
    by_cases hk : k ≤ j - 64
    · have e : 64 * 1 + (j - 64 - k) = j - k := by omega
      simp [hk, Nat.not_lt.mpr hk, show j - 64 < 64 by omega, show j - 64 - k < 64 by omega]
      congr 1
    · simp [hk, Nat.lt_of_not_le hk]

theorem bit_sarQ (v : M128) (k j : Nat) (hj : j % 64 + k < 64) (h128 : j < 128) : (sarQ v k).getLsbD j = v.getLsbD (j + k) := by
  simp only [sarQ, packQwords, qwordOf, BitVec.getLsbD_append, BitVec.getLsbD_sshiftRight, BitVec.getLsbD_extractLsb']
  split
  · rename_i h
    rw [Nat.mod_eq_of_lt h] at hj
    have h1 : ¬ 64 ≤ j := by omega
    have h2 : k + j < 64 := by omega
    simp only [h1, h2, decide_true, decide_false, Bool.not_false, Bool.true_and, if_true]
    congr 1; omega
  · rename_i h
    have h1 : ¬ 64 ≤ j - 64 := by omega
    have h2 : k + (j - 64) < 64 := by omega
    simp only [h1, h2, decide_true, decide_false, Bool.not_false, Bool.true_and, if_true]
    congr 1; omega

/-- One stage of `reflect`: groups of `k` bits are exchanged. -/
theorem refl_stage (k : Nat) (hk : k = 1 ∨ k = 2 ∨ k = 4) (y x : M128) (hy : ∀ j, j < 128 → y.getLsbD j = decide (j % (2 * k) < k))
    (hx : ∀ j, j < 128 → x.getLsbD j = !decide (j % (2 * k) < k)) (v : M128) (j : Nat) (hj : j < 128) :
    ((sarQ v k &&& y) ||| (shlQ v k &&& x)).getLsbD j = v.getLsbD (if j % (2 * k) < k then j + k else j - k) := by
  rw [BitVec.getLsbD_or, BitVec.getLsbD_and, BitVec.getLsbD_and, hy j hj, hx j hj]
  by_cases h : j % (2 * k) < k
  · have : j % 64 + k < 64 := by rcases hk with rfl | rfl | rfl <;> omega
    simp [h, bit_sarQ v k j this hj]
  · have : k ≤ j % 64 := by rcases hk with rfl | rfl | rfl <;> omega
    simp [h, bit_shlQ v k j hj, this]

theorem bit_reflect (v : M128) (j : Nat) (hj : j < 128) : (reflect v).getLsbD j = v.getLsbD (8 * (j / 8) + (7 - j % 8)) := by
  have s1 : ∀ v : M128, ∀ j, j < 128 → _ := fun v j hj => refl_stage 4 (by decide) reflY0 reflX0 (by decide +kernel) (by decide +kernel) v j hj
  have s2 : ∀ v : M128, ∀ j, j < 128 → _ := fun v j hj => refl_stage 2 (by decide) reflY1 reflX1 (by decide +kernel) (by decide +kernel) v j hj
  have s3 : ∀ v : M128, ∀ j, j < 128 → _ := fun v j hj => refl_stage 1 (by decide) reflY2 reflX2 (by decide +kernel) (by decide +kernel) v j hj
  rw [reflect, s3 _ j hj, s2 _ _ (by split <;> omega), s1 _ _ (by split <;> split <;> omega)]
  congr 1
  split <;> split <;> split <;> omega

theorem reflect_reflect (v : M128) : reflect (reflect v) = v := by
  apply BitVec.eq_of_getLsbD_eq
  intro j hj
  rw [bit_reflect _ _ hj, bit_reflect _ _ (by omega)]
  congr 1; omega

theorem reflect_xor (a b : M128) : reflect (a ^^^ b) = reflect a ^^^ reflect b := by
  apply BitVec.eq_of_getLsbD_eq
  intro j hj
  rw [bit_reflect _ _ hj, BitVec.getLsbD_xor, BitVec.getLsbD_xor, bit_reflect _ _ hj, bit_reflect _ _ hj]

/-! ### Blocks of the specification -/

theorem bit_leNat : ∀ (l : List Byte) (j : Nat), (leNat l).testBit j = (l.getD (j / 8) 0#8).getLsbD (j % 8) := by
  intro l
  induction l with
  | nil => intro j; simp [leNat]
  | cons b l ih =>
    intro j
    have e : leNat (b :: l) = 2 ^ 8 * leNat l + b.toNat := by rw [leNat]; omega
    rw [e, Nat.testBit_two_pow_mul_add _ b.isLt]
    by_cases hj : j < 8
    · rw [if_pos hj, Nat.div_eq_of_lt hj, List.getD_cons_zero, Nat.mod_eq_of_lt hj]; rfl
    · rw [if_neg hj, ih, show j / 8 = (j - 8) / 8 + 1 by omega, List.getD_cons_succ, show (j - 8) % 8 = j % 8 by omega]

/-- The register read from a block, reflected, is the block with its bits in reverse order. -/
theorem reflect_load (l : List Byte) (hl : l.length = 16) : reflect (loadBytes l) = (block l).reverse := by
  apply BitVec.eq_of_getLsbD_eq
  intro j hj
  rw [bit_reflect _ _ hj, BitVec.getLsbD_reverse, BitVec.getMsbD, block, BitVec.getLsbD_ofNat, beNat, bit_leNat]
  have h1 : (loadBytes l).getLsbD (8 * (j / 8) + (7 - j % 8)) = (byteOf (loadBytes l) (j / 8)).getLsbD (7 - j % 8) := by
    rw [byteOf, BitVec.getLsbD_extractLsb', decide_eq_true (by omega), Bool.true_and]
  have h2 : l.reverse.getD ((128 - 1 - j) / 8) 0#8 = l.getD (j / 8) 0#8 := by
    rw [List.getD_eq_getElem _ _ (by simp; omega), List.getD_eq_getElem _ _ (by omega), List.getElem_reverse]
    congr 1; omega
  rw [h1, byteOf_load _ (by omega), h2, show (128 - 1 - j) % 8 = 7 - j % 8 by omega, decide_eq_true hj,
    decide_eq_true (show 128 - 1 - j < 128 by omega), Bool.true_and, Bool.true_and]

theorem unblock_length (x : BitVec 128) : (unblock x).length = 16 := by simp [unblock]

theorem storeu_reflect (x : BitVec 128) : storeu (reflect x.reverse) = unblock x := by
  apply List.ext_getElem (by rw [storeu_length, unblock_length])
  intro i h1 h2
  have hi : i < 16 := h1
  rw [← List.getD_eq_getElem _ 0#8 h1, storeu_getD _ hi]
  simp only [unblock, List.getElem_map, List.getElem_range]
  apply BitVec.eq_of_getLsbD_eq
  intro j hj
  rw [byteOf, BitVec.getLsbD_extractLsb', BitVec.getLsbD_extractLsb', bit_reflect _ _ (by omega), BitVec.getLsbD_reverse, BitVec.getMsbD]
  simp only [hj, decide_true, Bool.true_and]
  rw [decide_eq_true (by omega), Bool.true_and]
  congr 1; omega

theorem unblock_block (l : List Byte) (hl : l.length = 16) : unblock (block l) = l := by
  rw [← storeu_reflect, ← reflect_load l hl, reflect_reflect, storeu_load hl]

theorem block_unblock (x : BitVec 128) : block (unblock x) = x := by
  have h := reflect_load (unblock x) (unblock_length x)
  rw [← storeu_reflect, load_storeu, reflect_reflect] at h
  have := congrArg BitVec.reverse h
  rw [BitVec.reverse_reverse_eq, BitVec.reverse_reverse_eq, storeu_reflect] at this
  exact this.symm

/-! ### The multiplication of the standard in polynomial order -/

/-- Multiplication by `x` modulo `x^128 + x^7 + x^2 + x + 1`, bit `i` being the coefficient of `x^i`. -/
def mulx (v : BitVec 128) : BitVec 128 := (v <<< 1) ^^^ (if v.getLsbD 127 then 0x87#128 else 0#128)

/-- `x^i v` -/
def mulxN : Nat → BitVec 128 → BitVec 128
  | 0, v => v
  | n + 1, v => mulx (mulxN n v)

theorem mulx_lin : XLin mulx := XLin.xor (xlin_shl 1) (xlin_bit 127 _)

/-- The sum over the bits `i` of `a` of `x^i b`. -/
def pmul (a b : BitVec 128) : BitVec 128 := xsum 128 (fun i => if a.getLsbD i then mulxN i b else 0#128)

theorem reverse_xor (a b : BitVec 128) : (a ^^^ b).reverse = a.reverse ^^^ b.reverse := by
  apply BitVec.eq_of_getLsbD_eq
  intro j hj
  simp [BitVec.getLsbD_reverse, BitVec.getMsbD_xor]

theorem reverse_step (v : BitVec 128) : (if v.getLsbD 0 then (v >>> 1) ^^^ gR else v >>> 1) = (mulx v.reverse).reverse := by
  have h0 : v.reverse.getLsbD 127 = v.getLsbD 0 := by rw [BitVec.getLsbD_reverse, BitVec.getMsbD]; simp
  have h1 : (v.reverse <<< 1).reverse = v >>> 1 := by
    apply BitVec.eq_of_getLsbD_eq
    intro j hj
    rw [BitVec.getLsbD_reverse, BitVec.getMsbD, BitVec.getLsbD_shiftLeft, BitVec.getLsbD_reverse, BitVec.getMsbD, BitVec.getLsbD_ushiftRight]
    by_cases h : j = 127
    · subst h; rw [BitVec.getLsbD_of_ge v 128 (by decide)]; simp
    · have h2 : ¬ 128 - 1 - j < 1 := by omega
      have h3 : 128 - 1 - j - 1 < 128 := by omega
      have h4 : 128 - 1 - j < 128 := by omega
      simp only [hj, h2, h3, h4, decide_true, decide_false, Bool.not_false, Bool.true_and]
      congr 1; omega
  have h2 : (0x87#128).reverse = gR := by decide +kernel
  rw [mulx, reverse_xor, h0, h1]
  split
  · rw [h2]
  · have : (0#128).reverse = 0#128 := by decide +kernel
    rw [this]; simp

theorem mul_pmul (x y : BitVec 128) : Gcm.mul x y = (pmul x.reverse y.reverse).reverse := by
  have key : ∀ n, n ≤ 128 → (List.range n).foldl (fun (zv : BitVec 128 × BitVec 128) i =>
      (if x.getMsbD i then zv.1 ^^^ zv.2 else zv.1, if zv.2.getLsbD 0 then (zv.2 >>> 1) ^^^ gR else zv.2 >>> 1)) (0#128, y) =
      ((xsum n (fun i => if x.reverse.getLsbD i then mulxN i y.reverse else 0#128)).reverse, (mulxN n y.reverse).reverse) := by
    intro n
    induction n with
    | zero =>
      intro _
      have h : (0#128).reverse = 0#128 := by decide +kernel
      show (0#128, y) = ((0#128).reverse, y.reverse.reverse)
      rw [h, BitVec.reverse_reverse_eq]
    | succ n ih =>
      intro hn
      rw [List.range_succ, List.foldl_append, ih (by omega)]
      simp only [List.foldl_cons, List.foldl_nil]
      rw [reverse_step, BitVec.reverse_reverse_eq, xsum, reverse_xor, BitVec.getLsbD_reverse]
      refine Prod.ext ?_ rfl
      simp only
      cases x.getMsbD n
      · have h : (0#128).reverse = 0#128 := by decide +kernel
        simp only [Bool.false_eq_true, if_false, h, BitVec.xor_zero]
      · simp
  rw [Gcm.mul, key 128 (le_refl _), pmul]

/-! ### The 256-bit product -/

/-- The product as polynomials, in 256 bits. -/
def prod256 (a b : BitVec 128) : BitVec 256 := clprod (a.setWidth 256) (b.setWidth 256)

theorem clmul64_prod (a b : U64) : (clmul64 a b).setWidth 256 = clprod (a.setWidth 256) (b.setWidth 256) := by
  have h1 : clmul64 a b = xsum 64 (fun i => if b.getLsbD i then a.setWidth 128 <<< i else 0#128) := foldl_xsum _ _ 64
  rw [h1, XLin.xsum (f := fun v : BitVec 128 => v.setWidth 256) xlin_setWidth]
  have h2 : ∀ k, xsum (64 + k) (fun i => if (b.setWidth 256).getLsbD i then a.setWidth 256 <<< i else 0#256) =
      xsum 64 (fun i => if (b.setWidth 256).getLsbD i then a.setWidth 256 <<< i else 0#256) := by
    intro k
    induction k with
    | zero => rfl
    | succ k ih =>
      rw [← Nat.add_assoc, xsum, ih]
      have : (b.setWidth 256).getLsbD (64 + k) = false := by
        rw [BitVec.getLsbD_setWidth, BitVec.getLsbD_of_ge b _ (by omega)]; simp
      rw [this]; simp
  rw [clprod, show (256 : Nat) = 64 + 192 by rfl, h2 192]
  apply xsum_congr
  intro i hi
  have hb : (b.setWidth (64 + 192)).getLsbD i = b.getLsbD i := by
    rw [BitVec.getLsbD_setWidth]; simp; omega
  rw [hb]
  cases b.getLsbD i
  · simp
  · simp only [if_true]
    apply BitVec.eq_of_getLsbD_eq
    intro j hj
    simp only [BitVec.getLsbD_setWidth, BitVec.getLsbD_shiftLeft]
    by_cases hij : j < i
    · simp [hij]
    · by_cases h : j < 128
      · simp [hij, h, show j < 256 by omega, show j - i < 128 by omega, show j - i < 256 by omega]
      · rw [BitVec.getLsbD_of_ge a _ (by omega)]; simp

theorem setWidth_split (a : M128) : a.setWidth 256 = (qwordOf a 0).setWidth 256 ^^^ ((qwordOf a 1).setWidth 256 <<< 64) := by
  apply BitVec.eq_of_getLsbD_eq
  intro j hj
  simp only [qwordOf, BitVec.getLsbD_xor, BitVec.getLsbD_setWidth, BitVec.getLsbD_shiftLeft, BitVec.getLsbD_extractLsb', hj, decide_true, Bool.true_and]
  by_cases h : j < 64
  · simp [h]
  · have h3 : j - 64 < 256 := by omega
    simp only [h, h3, decide_true, decide_false, Bool.false_and, Bool.not_false, Bool.true_and, Bool.false_xor]
    by_cases h2 : j - 64 < 64
    · simp only [h2, decide_true, Bool.true_and]; congr 1; omega
    · rw [BitVec.getLsbD_of_ge a _ (by omega)]; simp [h2]

/-- A 128-bit value shifted by 64 into the two halves of a 256-bit value. -/
theorem shift_halves (t : M128) : (t <<< 64).setWidth 256 ^^^ ((t >>> 64).setWidth 256 <<< 128) = t.setWidth 256 <<< 64 := by
  apply BitVec.eq_of_getLsbD_eq
  intro j hj
  simp only [BitVec.getLsbD_xor, BitVec.getLsbD_setWidth, BitVec.getLsbD_shiftLeft, BitVec.getLsbD_ushiftRight, hj, decide_true, Bool.true_and]
  by_cases h : j < 128
  · by_cases h2 : j < 64
    · simp [h, h2]
    · simp [h, h2, show j - 64 < 256 by omega]
  · rw [show 64 + (j - 128) = j - 64 by omega]
    simp [h, show ¬ j < 64 by omega, show j - 64 < 256 by omega, show j - 128 < 256 by omega]

theorem qwordOf_shuffle78 (a : M128) : qwordOf (shuffleEpi32 a 78 ^^^ a) 0 = qwordOf a 1 ^^^ qwordOf a 0 := by
  rw [qwordOf_xor]
  congr 1
  apply BitVec.eq_of_getLsbD_eq
  intro j hj
  simp only [qwordOf, shuffleEpi32, packDwords, dwordOf, BitVec.getLsbD_extractLsb', BitVec.getLsbD_append, hj, decide_true, Bool.true_and]
  split
  · rename_i h; simp [show j < 32 by omega]
  · rename_i h
    rw [if_pos (by omega)]
    simp [show j - 32 < 32 by omega]
    congr 1; omega

theorem xor_swap4 {n : Nat} (a b c d : BitVec n) : (a ^^^ b) ^^^ (c ^^^ d) = a ^^^ c ^^^ (b ^^^ d) := by ac_rfl

/-- Karatsuba: the two halves computed by `galoisMultiply` are the product. -/
theorem karatsuba (a b : M128) :
    let t3 := clmulEpi64 a b 0x00
    let t6 := clmulEpi64 a b 0x11
    let t4 := clmulEpi64 (shuffleEpi32 a 78 ^^^ a) (shuffleEpi32 b 78 ^^^ b) 0x00 ^^^ t3 ^^^ t6
    (t3 ^^^ slliSi t4 8).setWidth 256 ^^^ ((t6 ^^^ srliSi t4 8).setWidth 256 <<< 128) = prod256 a b := by
  intro t3 t6 t4
  have w : ∀ x y : M128, (x ^^^ y).setWidth 256 = x.setWidth 256 ^^^ y.setWidth 256 := @xlin_setWidth 128 256
  have w64 : ∀ x y : U64, (x ^^^ y).setWidth 256 = x.setWidth 256 ^^^ y.setWidth 256 := @xlin_setWidth 64 256
  have sh128 : ∀ x y : BitVec 256, (x ^^^ y) <<< 128 = x <<< 128 ^^^ y <<< 128 := xlin_shl 128
  have e3 : t3.setWidth 256 = clprod ((qwordOf a 0).setWidth 256) ((qwordOf b 0).setWidth 256) := clmul64_prod _ _
  have e6 : t6.setWidth 256 = clprod ((qwordOf a 1).setWidth 256) ((qwordOf b 1).setWidth 256) := clmul64_prod _ _
  have e4 : t4.setWidth 256 = clprod ((qwordOf a 1).setWidth 256) ((qwordOf b 0).setWidth 256) ^^^
      clprod ((qwordOf a 0).setWidth 256) ((qwordOf b 1).setWidth 256) := by
    show (clmul64 (qwordOf (shuffleEpi32 a 78 ^^^ a) 0) (qwordOf (shuffleEpi32 b 78 ^^^ b) 0) ^^^ t3 ^^^ t6).setWidth 256 = _
    rw [w, w, clmul64_prod, qwordOf_shuffle78, qwordOf_shuffle78, e3, e6]
    rw [w64, w64]
    generalize (qwordOf a 0).setWidth 256 = A0
    generalize (qwordOf a 1).setWidth 256 = A1
    generalize (qwordOf b 0).setWidth 256 = B0
    generalize (qwordOf b 1).setWidth 256 = B1
    have l : ∀ x y z : BitVec 256, clprod (x ^^^ y) z = clprod x z ^^^ clprod y z := fun x y z => clprod_lin_left z x y
    have r : ∀ x y z : BitVec 256, clprod z (x ^^^ y) = clprod z x ^^^ clprod z y := fun x y z => clprod_lin_right z x y
    rw [l, r, r]
    generalize clprod A1 B1 = p11
    generalize clprod A0 B0 = p00
    generalize clprod A1 B0 = p10
    generalize clprod A0 B1 = p01
    have : p11 ^^^ p10 ^^^ (p01 ^^^ p00) ^^^ p00 ^^^ p11 = (p10 ^^^ p01) ^^^ (p00 ^^^ p00) ^^^ (p11 ^^^ p11) := by ac_rfl
    rw [this]; simp only [BitVec.xor_self, BitVec.xor_zero]
  have e8 : (slliSi t4 8).setWidth 256 ^^^ ((srliSi t4 8).setWidth 256 <<< 128) = t4.setWidth 256 <<< 64 := shift_halves t4
  rw [w, w, sh128]
  rw [xor_swap4, e8, e3, e4, e6, prod256, setWidth_split a, setWidth_split b]
  generalize (qwordOf a 0).setWidth 256 = A0
  generalize (qwordOf a 1).setWidth 256 = A1
  generalize (qwordOf b 0).setWidth 256 = B0
  generalize (qwordOf b 1).setWidth 256 = B1
  have l : ∀ x y z : BitVec 256, clprod (x ^^^ y) z = clprod x z ^^^ clprod y z := fun x y z => clprod_lin_left z x y
  have r : ∀ x y z : BitVec 256, clprod z (x ^^^ y) = clprod z x ^^^ clprod z y := fun x y z => clprod_lin_right z x y
  have sh : ∀ x y : BitVec 256, (x ^^^ y) <<< 64 = x <<< 64 ^^^ y <<< 64 := fun x y => xlin_shl 64 x y
  rw [l, r, r, clprod_shl_left, clprod_shl_left, clprod_shl_right, clprod_shl_right, sh, ← BitVec.shiftLeft_add]
  generalize clprod A0 B0 = p00
  generalize clprod A1 B0 <<< 64 = p10
  generalize clprod A0 B1 <<< 64 = p01
  generalize clprod A1 B1 <<< 128 = p11
  ac_rfl

/-! ### The reduction -/

/-- `galoisReduce` on a 256-bit value. -/
def reduce256 (w : BitVec 256) : BitVec 128 := galoisReduce (w.setWidth 128) (w.extractLsb' 128 128)

theorem xlin_dword (i : Nat) : XLin (fun v : M128 => dwordOf v i) := xlin_extract _ _
theorem packDwords_xor (a b c d a' b' c' d' : U32) :
    packDwords (a ^^^ a') (b ^^^ b') (c ^^^ c') (d ^^^ d') = packDwords a b c d ^^^ packDwords a' b' c' d' := by
  apply m128_ext_dword
  intro i hi
  obtain ⟨p0, p1, p2, p3⟩ := dwordOf_pack (a ^^^ a') (b ^^^ b') (c ^^^ c') (d ^^^ d')
  obtain ⟨q0, q1, q2, q3⟩ := dwordOf_pack a b c d
  obtain ⟨r0, r1, r2, r3⟩ := dwordOf_pack a' b' c' d'
  rw [dwordOf_xor]
  match i, hi with
  | 0, _ => rw [p0, q0, r0]
  | 1, _ => rw [p1, q1, r1]
  | 2, _ => rw [p2, q2, r2]
  | 3, _ => rw [p3, q3, r3]

theorem xlin_map {f : U32 → U32} (h : XLin f) : XLin (mapDwords f) := fun a b => by
  simp only [mapDwords, dwordOf_xor]
  rw [h, h, h, h, packDwords_xor]
theorem xlin_shuffle (imm : Nat) : XLin (fun v => shuffleEpi32 v imm) := fun a b => by
  simp only [shuffleEpi32, dwordOf_xor, packDwords_xor]

theorem reduce_lin : XLin reduce256 := by
  have lo : XLin (fun w : BitVec 256 => w.setWidth 128) := xlin_setWidth
  have hi : XLin (fun w : BitVec 256 => w.extractLsb' 128 128) := xlin_extract _ _
  have t8 : XLin (fun w : BitVec 256 => shuffleEpi32 (srliEpi32 (w.extractLsb' 128 128) 31 ^^^ srliEpi32 (w.extractLsb' 128 128) 30 ^^^
      srliEpi32 (w.extractLsb' 128 128) 25) 0x93) :=
    (xlin_shuffle _).comp (((xlin_map (xlin_shr 31)).xor (xlin_map (xlin_shr 30))).xor (xlin_map (xlin_shr 25)) |>.comp hi)
  have t6 : XLin (fun w : BitVec 256 => w.extractLsb' 128 128 ^^^ (xmmMask &&& shuffleEpi32 (srliEpi32 (w.extractLsb' 128 128) 31 ^^^
      srliEpi32 (w.extractLsb' 128 128) 30 ^^^ srliEpi32 (w.extractLsb' 128 128) 25) 0x93)) := hi.xor ((xlin_and _).comp t8)
  have t3 : XLin (fun w : BitVec 256 => w.setWidth 128 ^^^ andnot xmmMask (shuffleEpi32 (srliEpi32 (w.extractLsb' 128 128) 31 ^^^
      srliEpi32 (w.extractLsb' 128 128) 30 ^^^ srliEpi32 (w.extractLsb' 128 128) 25) 0x93)) := lo.xor ((xlin_and _).comp t8)
  exact (((t3.xor t6).xor ((xlin_map (xlin_shl 1)).comp t6)).xor ((xlin_map (xlin_shl 2)).comp t6)).xor ((xlin_map (xlin_shl 7)).comp t6)

set_option maxRecDepth 100000 in
theorem reduce_step_basis : ∀ i, i < 255 → reduce256 (BitVec.twoPow 256 i <<< 1) = mulx (reduce256 (BitVec.twoPow 256 i)) := by decide +kernel

set_option maxRecDepth 100000 in
theorem reduce_low_basis : ∀ i, i < 128 → reduce256 ((BitVec.twoPow 128 i).setWidth 256) = BitVec.twoPow 128 i := by decide +kernel

theorem reduce_step (w : BitVec 256) (hw : w.getLsbD 255 = false) : reduce256 (w <<< 1) = mulx (reduce256 w) :=
  xlin_ext_below (f := fun w => reduce256 (w <<< 1)) (g := fun w => mulx (reduce256 w)) (reduce_lin.comp (xlin_shl 1)) (mulx_lin.comp reduce_lin)
    255 reduce_step_basis w (fun j hj => by
      by_cases h : j = 255
      · rw [h]; exact hw
      · exact BitVec.getLsbD_of_ge _ _ (by omega))

theorem reduce_low (a : BitVec 128) : reduce256 (a.setWidth 256) = a :=
  xlin_ext (f := fun a : BitVec 128 => reduce256 (a.setWidth 256)) (g := fun a => a) (reduce_lin.comp xlin_setWidth) xlin_id reduce_low_basis a

theorem reduce_shl (a : BitVec 128) : ∀ i, i ≤ 128 → reduce256 (a.setWidth 256 <<< i) = mulxN i a := by
  intro i
  induction i with
  | zero => intro _; rw [BitVec.shiftLeft_zero, reduce_low]; rfl
  | succ i ih =>
    intro hi
    rw [BitVec.shiftLeft_add, reduce_step, ih (by omega), mulxN]
    rw [BitVec.getLsbD_shiftLeft, BitVec.getLsbD_setWidth, BitVec.getLsbD_of_ge a _ (by omega)]
    simp

theorem reduce_prod (a b : BitVec 128) : reduce256 (prod256 a b) = pmul a b := by
  rw [prod256, clprod_comm, clprod, reduce_lin.xsum]
  have h2 : ∀ k, xsum (128 + k) (fun i => reduce256 (if (a.setWidth 256).getLsbD i then b.setWidth 256 <<< i else 0#256)) =
      xsum 128 (fun i => reduce256 (if (a.setWidth 256).getLsbD i then b.setWidth 256 <<< i else 0#256)) := by
    intro k
    induction k with
    | zero => rfl
    | succ k ih =>
      rw [← Nat.add_assoc, xsum, ih]
      have : (a.setWidth 256).getLsbD (128 + k) = false := by
        rw [BitVec.getLsbD_setWidth, BitVec.getLsbD_of_ge a _ (by omega)]; simp
      rw [this]; simp [reduce_lin.zero]
  rw [show xsum 256 (fun i => reduce256 (if (a.setWidth 256).getLsbD i then b.setWidth 256 <<< i else 0#256)) = _ from h2 128, pmul]
  apply xsum_congr
  intro i hi
  have hb : (a.setWidth 256).getLsbD i = a.getLsbD i := by
    rw [BitVec.getLsbD_setWidth]; simp; omega
  rw [hb]
  split
  · exact reduce_shl b i (by omega)
  · exact reduce_lin.zero

/-- `galoisMultiply` is the multiplication of polynomials modulo `x^128 + x^7 + x^2 + x + 1`. -/
theorem galoisMultiply_pmul (a b : M128) : galoisMultiply a b = pmul a b := by
  rw [← reduce_prod, ← karatsuba a b, galoisMultiply, reduce256]
  congr 1
  · apply BitVec.eq_of_getLsbD_eq
    intro j hj
    simp [BitVec.getLsbD_setWidth, BitVec.getLsbD_shiftLeft, hj]
  · apply BitVec.eq_of_getLsbD_eq
    intro j hj
    simp only [BitVec.getLsbD_extractLsb', BitVec.getLsbD_xor, BitVec.getLsbD_setWidth, BitVec.getLsbD_shiftLeft, hj, decide_true, Bool.true_and]
    rw [BitVec.getLsbD_of_ge _ (128 + j) (by omega), BitVec.getLsbD_of_ge _ (128 + j) (by omega)]
    simp [show 128 + j < 256 by omega, show j < 256 by omega]

/-- In the byte order of the standard. -/
theorem galoisMultiply_spec (x y : BitVec 128) : galoisMultiply x.reverse y.reverse = (Gcm.mul x y).reverse := by
  rw [galoisMultiply_pmul, mul_pmul, BitVec.reverse_reverse_eq]

end Verif.Proof
