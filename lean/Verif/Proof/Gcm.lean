import Verif.Model.Gcm
import Verif.Proof.Ghash
import Verif.Proof.BignumOps
import Verif.Proof.Pss
import Mathlib.Data.List.GetD
import Mathlib.Logic.Function.Iterate

/-! Galois/counter mode: the loops of the model compute GHASH and GCTR of the specification. -/

namespace Verif.Proof

open Verif.Model Verif.Spec Verif.Spec.Gcm

/-! ### counter blocks -/

theorem length16 {l : List Byte} (h : l.length = 16) : ∃ a0 a1 a2 a3 a4 a5 a6 a7 a8 a9 a10 a11 a12 a13 a14 a15,
    l = [a0, a1, a2, a3, a4, a5, a6, a7, a8, a9, a10, a11, a12, a13, a14, a15] := by
  match l, h with
  | [a0, a1, a2, a3, a4, a5, a6, a7, a8, a9, a10, a11, a12, a13, a14, a15], _ => exact ⟨a0, a1, a2, a3, a4, a5, a6, a7, a8, a9, a10, a11, a12, a13, a14, a15, rfl⟩

theorem inc_digits (a b c d : Byte) :
    (let n := (beNat [a, b, c, d] + 1) % 2 ^ 32; (List.range 4).map (fun i => BitVec.ofNat 8 (n / 256 ^ (3 - i)))) =
      (if d + 1#8 ≠ 0#8 then [a, b, c, d + 1#8] else if c + 1#8 ≠ 0#8 then [a, b, c + 1#8, d + 1#8] else
        if b + 1#8 ≠ 0#8 then [a, b + 1#8, c + 1#8, d + 1#8] else [a + 1#8, b + 1#8, c + 1#8, d + 1#8]) := by
  have hn : beNat [a, b, c, d] = a.toNat * 2 ^ 24 + b.toNat * 2 ^ 16 + c.toNat * 2 ^ 8 + d.toNat := by
    simp only [beNat_cons, List.length_cons, List.length_nil]
    simp [beNat, leNat]; omega
  have ha := a.isLt; have hb := b.isLt; have hc := c.isLt; have hd := d.isLt
  have e : ∀ x : Byte, (x + 1#8 = 0#8 ↔ x.toNat = 255) := by
    intro x
    have := x.isLt
    rw [← BitVec.toNat_inj, BitVec.toNat_add]; simp; omega
  have t : ∀ (x : Byte), (x + 1#8).toNat = (x.toNat + 1) % 256 := fun x => by rw [BitVec.toNat_add]; rfl
  rw [hn]
  simp only [List.range, List.range.loop, List.map, ne_eq, e]
  split
  · rename_i h
    congr 1 <;> [skip; congr 1 <;> [skip; congr 1 <;> [skip; congr 1]]] <;>
    · apply BitVec.eq_of_toNat_eq; simp only [BitVec.toNat_ofNat, t]; omega
  · rename_i h
    split
    · congr 1 <;> [skip; congr 1 <;> [skip; congr 1 <;> [skip; congr 1]]] <;>
      · apply BitVec.eq_of_toNat_eq; simp only [BitVec.toNat_ofNat, t]; omega
    · rename_i h2
      split
      · congr 1 <;> [skip; congr 1 <;> [skip; congr 1 <;> [skip; congr 1]]] <;>
        · apply BitVec.eq_of_toNat_eq; simp only [BitVec.toNat_ofNat, t]; omega
      · congr 1 <;> [skip; congr 1 <;> [skip; congr 1 <;> [skip; congr 1]]] <;>
        · apply BitVec.eq_of_toNat_eq; simp only [BitVec.toNat_ofNat, t]; omega

/-- `ctr_inc` is `inc_32`. -/
theorem ctrInc_spec {l : List Byte} (h : l.length = 16) : ctrInc l = inc32 l := by
  obtain ⟨a0, a1, a2, a3, a4, a5, a6, a7, a8, a9, a10, a11, a12, a13, a14, a15, rfl⟩ := length16 h
  rw [inc32]
  simp only [List.drop, inc_digits]
  simp only [ctrInc, List.set, List.getD_cons_succ, List.getD_cons_zero, List.take]
  split
  · rfl
  · split
    · rfl
    · split <;> rfl

theorem inc32_length {l : List Byte} (h : l.length = 16) : (inc32 l).length = 16 := by simp [inc32, h]

theorem inc32_iter_length {l : List Byte} (h : l.length = 16) (n : Nat) : (inc32^[n] l).length = 16 := by
  induction n with
  | zero => exact h
  | succ n ih => rw [Function.iterate_succ_apply']; exact inc32_length ih

theorem inc32_eq (l : List Byte) : inc32 l = l.take 12 ++ i2osp ((beNat (l.drop 12) + 1) % 2 ^ 32) 4 := rfl
theorem be64_eq (n : Nat) : be64 n = i2osp n 8 := rfl

theorem inc32_iter {l : List Byte} (h : l.length = 16) (n : Nat) :
    inc32^[n] l = l.take 12 ++ i2osp ((beNat (l.drop 12) + n) % 2 ^ 32) 4 := by
  have hd : (l.drop 12).length = 4 := by simp [h]
  have ht : (l.take 12).length = 12 := by simp [h]
  induction n with
  | zero =>
    have h1 := beNat_lt (l.drop 12)
    rw [hd] at h1
    have h2 := i2osp_beNat (l.drop 12)
    rw [hd] at h2
    rw [Nat.add_zero, Nat.mod_eq_of_lt h1, h2, List.take_append_drop]; rfl
  | succ n ih =>
    rw [Function.iterate_succ_apply', ih, inc32_eq, List.take_append_of_le_length (by omega), List.take_of_length_le (by omega),
      List.drop_append_of_le_length (by omega), List.drop_of_length_le (by omega), List.nil_append, beNat_i2osp]
    congr 2
    omega

/-! ### GHASH -/

/-- GHASH continued from a value. -/
def gfold (h y : BitVec 128) (x : List Byte) : BitVec 128 := (blocksOf (x.length / 16) x).foldl (fun y xi => mul (y ^^^ xi) h) y

theorem ghash_gfold (h : BitVec 128) (x : List Byte) : ghash h x = gfold h 0#128 x := rfl

theorem blocksOf_succ (n : Nat) (l : List Byte) : blocksOf (n + 1) l = blocksOf n l ++ [block ((l.drop (16 * n)).take 16)] := by
  simp [blocksOf, List.range_succ]

theorem blocksOf_append_left (n : Nat) (a b : List Byte) (h : 16 * n ≤ a.length) : blocksOf n (a ++ b) = blocksOf n a := by
  apply List.map_congr_left
  intro i hi
  have := List.mem_range.mp hi
  rw [List.drop_append_of_le_length (by omega), List.take_append_of_le_length (by simp; omega)]

theorem blocksOf_append (n m : Nat) (a b : List Byte) (h : a.length = 16 * n) : blocksOf (n + m) (a ++ b) = blocksOf n a ++ blocksOf m b := by
  rw [← blocksOf_append_left n a b (by omega)]
  simp only [blocksOf, List.range_add, List.map_append, List.map_map]
  congr 1
  apply List.map_congr_left
  intro i _
  show block (((a ++ b).drop (16 * (n + i))).take 16) = _
  rw [List.drop_append, List.drop_of_length_le (by omega), List.nil_append]
  congr 3; omega

theorem gfold_append (h y : BitVec 128) (a b : List Byte) (ha : a.length % 16 = 0) : gfold h y (a ++ b) = gfold h (gfold h y a) b := by
  rw [gfold, gfold, gfold, ← List.foldl_append]
  congr 1
  rw [← blocksOf_append _ _ _ _ (show a.length = 16 * (a.length / 16) by omega)]
  congr 1
  rw [List.length_append]; omega

theorem pad16_length (l : List Byte) : (pad16 l).length % 16 = 0 := by simp [pad16]; omega

/-- One block of GHASH in the model's bit order. -/
theorem ghashBlock_spec (x : List Byte) (h y : BitVec 128) (hx : x.length = 16) :
    ghashBlock (reflect (loadBytes x)) h.reverse y.reverse = (mul (y ^^^ block x) h).reverse := by
  rw [reflect_load x hx, ghashBlock, ← reverse_xor, galoisMultiply_spec]

theorem loadu_ok {l : List Byte} {off : Nat} (h : off + 16 ≤ l.length) : loadu l off = .ok (loadBytes ((l.drop off).take 16)) := by
  rw [loadu, if_pos h, load_take]

theorem hash_loop (h y : BitVec 128) (data : List Byte) (n : Nat) (hn : 16 * n ≤ data.length) :
    loop n y.reverse (fun chash n => do return ghashBlock (reflect (← loadu data (16 * n))) h.reverse chash) =
      .ok ((blocksOf n data).foldl (fun y xi => mul (y ^^^ xi) h) y).reverse := by
  induction n with
  | zero => rfl
  | succ n ih =>
    rw [loop, ih (by omega), blocksOf_succ, List.foldl_append, List.foldl_cons, List.foldl_nil,
      ← ghashBlock_spec _ _ _ (by simp; omega)]
    show (do return ghashBlock (reflect (← loadu data (16 * n))) h.reverse _) = _
    rw [loadu_ok (by omega)]
    rfl

/-- The additional data or the text, padded. -/
theorem gcmHashData_spec (h y : BitVec 128) (data : List Byte) : gcmHashData h.reverse y.reverse data = .ok (gfold h y (pad16 data)).reverse := by
  rw [gcmHashData]
  simp only [hash_loop h y data (data.length / 16) (by omega), ok_bind]
  have hp : (pad16 data).length / 16 = data.length / 16 + if data.length - data.length / 16 * 16 > 0 then 1 else 0 := by
    simp only [pad16, List.length_append, List.length_replicate]
    split <;> omega
  split
  · rename_i hb
    rw [if_pos hb] at hp
    rw [gfold, hp, blocksOf_succ, pad16, blocksOf_append_left _ _ _ (by omega), List.foldl_append, List.foldl_cons, List.foldl_nil]
    have hbl : (data.drop (16 * (data.length / 16)) ++ List.replicate ((16 - data.length % 16) % 16) 0#8).length = 16 := by
      simp; omega
    rw [List.drop_append_of_le_length (by omega), List.take_of_length_le (Nat.le_of_eq hbl), ← ghashBlock_spec _ _ _ hbl]
    have e : (data.drop (data.length - (data.length - data.length / 16 * 16))).take (data.length - data.length / 16 * 16) ++
        List.replicate (16 - (data.length - data.length / 16 * 16)) 0#8 =
        data.drop (16 * (data.length / 16)) ++ List.replicate ((16 - data.length % 16) % 16) 0#8 := by
      rw [show data.length - (data.length - data.length / 16 * 16) = 16 * (data.length / 16) by omega, List.take_of_length_le (by simp; omega)]
      congr 2; omega
    rw [e, loadu_ok (by omega), List.drop_zero, List.take_of_length_le (by omega)]
    rfl
  · rename_i hb
    rw [if_neg hb] at hp
    have : pad16 data = data := by
      rw [pad16, show (16 - data.length % 16) % 16 = 0 by omega]; simp
    rw [gfold, hp, Nat.add_zero, this]
    rfl

theorem byte_and (x : U64) (i : Nat) (hi : i ≤ 7): ((x >>> (8 * i)) &&& 0xFF#64).setWidth 8 = BitVec.ofNat 8 (x.toNat / 256 ^ i) := by
  apply BitVec.eq_of_toNat_eq
  have : (0xFF#64).toNat = 2 ^ 8 - 1 := rfl
  rw [BitVec.toNat_setWidth, BitVec.toNat_and, this, BitVec.toNat_ofNat, BitVec.toNat_ushiftRight, Nat.and_two_pow_sub_one_eq_mod,
    Nat.shiftRight_eq_div_pow, pow_mul]
  exact Nat.mod_mod _ _

theorem be64_mod (n : Nat) : be64 n = be64 (n % 2 ^ 64) := by
  apply List.map_congr_left
  intro i hi
  apply BitVec.eq_of_toNat_eq
  rw [BitVec.toNat_ofNat, BitVec.toNat_ofNat]
  have := List.mem_range.mp hi
  rw [show (256 : Nat) = 2 ^ 8 from rfl, ← pow_mul]
  rw [show (2 : Nat) ^ 64 = 2 ^ (8 * (7 - i)) * 2 ^ (64 - 8 * (7 - i)) by rw [← pow_add]; congr 1; omega, Nat.mod_mul_right_div_self,
    Nat.mod_mod_of_dvd _ (pow_dvd_pow 2 (by omega))]

theorem gcmSizes_list (x y : U64) : ((List.range 8).foldl (fun (s : List Byte × U64 × U64) i =>
    let n := 7 - i
    let (sizes, aadsize, ptsize) := s
    let sizes := sizes.set n ((aadsize &&& 0xFF#64).setWidth 8)
    let sizes := sizes.set (n + 8) ((ptsize &&& 0xFF#64).setWidth 8)
    (sizes, aadsize >>> 8, ptsize >>> 8)) (List.replicate 16 0#8, x, y)).1 =
    (List.range 8).map (fun i => ((x >>> (8 * (7 - i))) &&& 0xFF#64).setWidth 8) ++
    (List.range 8).map (fun i => ((y >>> (8 * (7 - i))) &&& 0xFF#64).setWidth 8) := by
  simp only [List.range, List.range.loop, List.foldl, List.map, List.replicate, List.set, List.cons_append, List.nil_append, ← BitVec.shiftRight_add,
    Nat.reduceMul, Nat.reduceSub, Nat.reduceAdd, BitVec.ushiftRight_zero]

theorem gcmSizes_spec (t a : Nat) : gcmSizes t a = be64 (8 * a) ++ be64 (8 * t) := by
  refine (gcmSizes_list (BitVec.ofNat 64 (a * 8)) (BitVec.ofNat 64 (t * 8))).trans ?_
  congr 1
  · rw [be64_mod]
    apply List.map_congr_left
    intro i _
    rw [byte_and _ _ (by omega), BitVec.toNat_ofNat, Nat.mul_comm 8]
  · rw [be64_mod]
    apply List.map_congr_left
    intro i _
    rw [byte_and _ _ (by omega), BitVec.toNat_ofNat, Nat.mul_comm 8]

theorem gfold_block (h y : BitVec 128) (l : List Byte) (hl : l.length = 16) : gfold h y l = mul (y ^^^ block l) h := by
  have : blocksOf (l.length / 16) l = [block l] := by
    rw [hl, show (16 : Nat) / 16 = 0 + 1 from rfl, blocksOf_succ, Nat.mul_zero, List.drop_zero, List.take_of_length_le (by omega)]
    rfl
  rw [gfold, this, List.foldl_cons, List.foldl_nil]

theorem reverse_zero128 : (0#128).reverse = 0#128 := by
  apply BitVec.eq_of_getLsbD_eq; intro i _; simp [BitVec.getLsbD_reverse, BitVec.getMsbD]

theorem gcmGhash_unfold (h : M128) (c a : List Byte) : gcmGhash h c a = (gcmHashData h 0#128 a >>= fun y => gcmHashData h y c >>= fun y =>
    loadu (gcmSizes c.length a.length) 0 >>= fun s => Except.ok (storeu (reflect (ghashBlock (reflect s) h y)))) := rfl

/-- `ghash` is GHASH of the padded data and the two lengths. -/
theorem gcmGhash_spec (h : BitVec 128) (c a : List Byte) :
    gcmGhash h.reverse c a = .ok (unblock (ghash h (pad16 a ++ pad16 c ++ be64 (8 * a.length) ++ be64 (8 * c.length)))) := by
  have hl : (be64 (8 * a.length) ++ be64 (8 * c.length)).length = 16 := by
    rw [List.length_append, be64_eq, be64_eq, i2osp_length, i2osp_length]
  rw [gcmGhash_unfold, ← reverse_zero128, gcmHashData_spec, ok_bind, gcmHashData_spec, ok_bind, gcmSizes_spec, loadu_ok (Nat.le_of_eq hl.symm), ok_bind,
    List.drop_zero, List.take_of_length_le (Nat.le_of_eq hl), ghashBlock_spec _ _ _ hl, storeu_reflect, ghash_gfold, List.append_assoc,
    gfold_append _ _ (pad16 a ++ pad16 c), gfold_append _ _ _ _ (pad16_length a), gfold_block _ _ _ hl]
  have := pad16_length a
  have := pad16_length c
  rw [List.length_append]; omega

end Verif.Proof
