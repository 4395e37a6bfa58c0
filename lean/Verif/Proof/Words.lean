import Verif.Model.Sha2
import Verif.Spec.Sha2
import Verif.Spec.Md5
import Mathlib.Data.List.GetD

/-! Word-level lemmas for the hash proofs. -/

namespace Verif.Proof
open Verif.Model

theorem rotate_eq (v : U32) {l : Nat} (h0 : 0 < l) (h : l < 32) : rotate v l = v.rotateLeft l := by
  rw [rotate, BitVec.rotateLeft_def, Nat.mod_eq_of_lt h]
  ext i hi
  rw [BitVec.getElem_xor, BitVec.getElem_or, BitVec.getElem_shiftLeft, BitVec.getElem_ushiftRight]
  by_cases hil : i < l
  · simp [hil]
  · rw [BitVec.getLsbD_of_ge _ _ (show 32 ≤ 32 - l + i by omega)]
    simp

theorem rotr32_eq (v : U32) {l : Nat} (h : l < 32) : rotr32 v l = v.rotateRight l := by
  rw [rotr32, BitVec.rotateRight_def, Nat.mod_eq_of_lt h]

theorem rotr64_eq (v : U64) {l : Nat} (h : l < 64) : rotr64 v l = v.rotateRight l := by
  rw [rotr64, BitVec.rotateRight_def, Nat.mod_eq_of_lt h]

theorem ch_eq {w : Nat} (x y z : BitVec w) : (x &&& y) ||| (~~~x &&& z) = Spec.Ch x y z := by
  unfold Spec.Ch
  ext i hi
  simp only [BitVec.getElem_or, BitVec.getElem_xor, BitVec.getElem_and, BitVec.getElem_not]
  cases x[i] <;> cases y[i] <;> cases z[i] <;> rfl

theorem maj_eq {w : Nat} (x y z : BitVec w) : (x &&& y) ||| (x &&& z) ||| (y &&& z) = Spec.Maj x y z := by
  unfold Spec.Maj
  ext i hi
  simp only [BitVec.getElem_or, BitVec.getElem_xor, BitVec.getElem_and]
  cases x[i] <;> cases y[i] <;> cases z[i] <;> rfl

/-- Building a list by appending `f w i` to what has been built reproduces a function satisfying the same recursion. -/
theorem build_spec {α : Type} (dflt : α) (f : List α → Nat → α) (g : Nat → α) :
    ∀ (n : Nat) (l : List α), (∀ j < l.length, l.getD j dflt = g j) →
      (∀ (w : List α), l.length ≤ w.length → (∀ j < w.length, w.getD j dflt = g j) → f w w.length = g w.length) →
      ((List.range' l.length n).foldl (fun w i => w ++ [f w i]) l).length = l.length + n ∧
      ∀ j < l.length + n, ((List.range' l.length n).foldl (fun w i => w ++ [f w i]) l).getD j dflt = g j := by
  intro n
  induction n with
  | zero => intro l h _; simpa using h
  | succ n ih =>
    intro l hl hf
    have hl' : ∀ j < (l ++ [f l l.length]).length, (l ++ [f l l.length]).getD j dflt = g j := by
      intro j hj
      rw [List.length_append, List.length_singleton] at hj
      by_cases hjl : j < l.length
      · rw [List.getD_append _ _ _ _ hjl]; exact hl j hjl
      · have : j = l.length := by omega
        subst this
        rw [List.getD_append_right _ _ _ _ (le_refl _), Nat.sub_self]
        exact hf l (le_refl _) hl
    have := ih (l ++ [f l l.length]) hl' (fun w hw h => hf w (by simp at hw; omega) h)
    rw [List.length_append, List.length_singleton] at this
    rw [List.range'_succ, List.foldl_cons]
    refine ⟨by rw [this.1]; omega, fun j hj => this.2 j (by omega)⟩

/-- A slice of a block, read element by element. -/
theorem slice4 {m : List Byte} {i : Nat} (h : i + 4 ≤ m.length) :
    (m.drop i).take 4 = [m.getD i 0, m.getD (i + 1) 0, m.getD (i + 2) 0, m.getD (i + 3) 0] := by
  apply List.ext_getElem
  · simp; omega
  · intro j h1 h2
    simp only [List.length_cons, List.length_nil] at h2
    rw [List.getElem_take, List.getElem_drop]
    have : j = 0 ∨ j = 1 ∨ j = 2 ∨ j = 3 := by omega
    rcases this with rfl | rfl | rfl | rfl <;>
      simp [List.getD_eq_getElem?_getD, List.getElem?_eq_getElem (show i + 3 < m.length by omega), List.getElem?_eq_getElem (show i + 2 < m.length by omega), List.getElem?_eq_getElem (show i + 1 < m.length by omega), List.getElem?_eq_getElem (show i < m.length by omega)]

theorem slice8 {m : List Byte} {i : Nat} (h : i + 8 ≤ m.length) :
    (m.drop i).take 8 = [m.getD i 0, m.getD (i + 1) 0, m.getD (i + 2) 0, m.getD (i + 3) 0,
      m.getD (i + 4) 0, m.getD (i + 5) 0, m.getD (i + 6) 0, m.getD (i + 7) 0] := by
  have h48 : ∀ l : List Byte, l.take 8 = l.take 4 ++ (l.drop 4).take 4 := fun l => List.take_add (i := 4) (j := 4)
  rw [h48, List.drop_drop, slice4 (by omega), slice4 (by omega)]
  rfl

theorem beWord4 {m : List Byte} {t : Nat} (h : 4 * t + 4 ≤ m.length) :
    (byte32 m (t * 4) <<< 24) + (byte32 m (t * 4 + 1) <<< 16) + (byte32 m (t * 4 + 2) <<< 8) + byte32 m (t * 4 + 3)
      = Spec.beWord 4 m t := by
  unfold Spec.beWord
  rw [slice4 h]
  simp only [byte32, Spec.beOctets, List.foldl, Nat.mul_comm t 4]
  generalize m.getD (4 * t) 0 = a
  generalize m.getD (4 * t + 1) 0 = b
  generalize m.getD (4 * t + 2) 0 = c
  generalize m.getD (4 * t + 3) 0 = d
  apply BitVec.eq_of_toNat_eq
  simp only [BitVec.toNat_add, BitVec.toNat_shiftLeft, BitVec.toNat_setWidth, BitVec.toNat_ofNat, Nat.shiftLeft_eq]
  omega

theorem beWord8 {m : List Byte} {t : Nat} (h : 8 * t + 8 ≤ m.length) :
    (byte64 m (t * 8) <<< 56) + (byte64 m (t * 8 + 1) <<< 48) + (byte64 m (t * 8 + 2) <<< 40) +
      (byte64 m (t * 8 + 3) <<< 32) + (byte64 m (t * 8 + 4) <<< 24) + (byte64 m (t * 8 + 5) <<< 16) +
      (byte64 m (t * 8 + 6) <<< 8) + (byte64 m (t * 8 + 7) <<< 0)
      = Spec.beWord 8 m t := by
  unfold Spec.beWord
  rw [slice8 h]
  simp only [byte64, Spec.beOctets, List.foldl, Nat.mul_comm t 8]
  generalize m.getD (8 * t) 0 = a
  generalize m.getD (8 * t + 1) 0 = b
  generalize m.getD (8 * t + 2) 0 = c
  generalize m.getD (8 * t + 3) 0 = d
  generalize m.getD (8 * t + 4) 0 = e
  generalize m.getD (8 * t + 5) 0 = f
  generalize m.getD (8 * t + 6) 0 = g
  generalize m.getD (8 * t + 7) 0 = k
  apply BitVec.eq_of_toNat_eq
  simp only [BitVec.toNat_add, BitVec.toNat_shiftLeft, BitVec.toNat_setWidth, BitVec.toNat_ofNat, Nat.shiftLeft_eq]
  omega

/-- `(x <<< k) ||| y` for a `y` that fits below bit `k`. -/
theorem shl_or_toNat {w k : Nat} (x y : BitVec w) (hy : y.toNat < 2 ^ k) (hx : x.toNat * 2 ^ k < 2 ^ w) :
    ((x <<< k) ||| y).toNat = x.toNat * 2 ^ k + y.toNat := by
  rw [BitVec.toNat_or, BitVec.toNat_shiftLeft, Nat.shiftLeft_eq, Nat.mod_eq_of_lt hx, Nat.mul_comm,
    Nat.two_pow_add_eq_or_of_lt hy]

theorem or_shl_toNat {w k : Nat} (x y : BitVec w) (hy : y.toNat < 2 ^ k) (hx : x.toNat * 2 ^ k < 2 ^ w) :
    (y ||| (x <<< k)).toNat = y.toNat + x.toNat * 2 ^ k := by
  rw [BitVec.or_comm, shl_or_toNat x y hy hx, Nat.add_comm]

theorem leWord4 {m : List Byte} {g : Nat} (h : 4 * g + 4 ≤ m.length) :
    byte32 m (4 * g) ||| (byte32 m (4 * g + 1) <<< 8) ||| (byte32 m (4 * g + 2) <<< 16) ||| (byte32 m (4 * g + 3) <<< 24)
      = Spec.md5X m g := by
  unfold Spec.md5X
  rw [slice4 h]
  simp only [byte32, Spec.leOctets, List.foldr]
  generalize m.getD (4 * g) 0 = a
  generalize m.getD (4 * g + 1) 0 = b
  generalize m.getD (4 * g + 2) 0 = c
  generalize m.getD (4 * g + 3) 0 = d
  have ha := a.isLt; have hb := b.isLt; have hc := c.isLt; have hd := d.isLt
  have e (x : Byte) : (x.setWidth 32).toNat = x.toNat := by
    rw [BitVec.toNat_setWidth]; have := x.isLt; omega
  have h1 := or_shl_toNat (k := 8) (b.setWidth 32) (a.setWidth 32) (by rw [e]; omega) (by rw [e]; omega)
  have h2 := or_shl_toNat (k := 16) (c.setWidth 32) _ (by rw [h1, e, e]; omega) (by rw [e]; omega)
  have h3 := or_shl_toNat (k := 24) (d.setWidth 32) _ (by rw [h2, h1, e, e, e]; omega) (by rw [e]; omega)
  apply BitVec.eq_of_toNat_eq
  rw [h3, h2, h1, e, e, e, e, BitVec.toNat_ofNat]
  omega

theorem loadWord4 {m : List Byte} {n : Nat} (h : 4 * n + 4 ≤ m.length) :
    (List.range 4).foldl (fun (v : U32) i => (v <<< 8) ||| byte32 m (4 * n + i)) 0#32 = Spec.beWord 4 m n := by
  unfold Spec.beWord
  rw [slice4 h]
  simp only [List.range, List.range.loop, List.foldl, byte32, Spec.beOctets, Nat.add_zero]
  generalize m.getD (4 * n) 0#8 = a
  generalize m.getD (4 * n + 1) 0#8 = b
  generalize m.getD (4 * n + 2) 0#8 = c
  generalize m.getD (4 * n + 3) 0#8 = d
  have ha := a.isLt; have hb := b.isLt; have hc := c.isLt; have hd := d.isLt
  have e (x : Byte) : (x.setWidth 32).toNat = x.toNat := by
    rw [BitVec.toNat_setWidth]; have := x.isLt; omega
  have h0 : (0#32 <<< 8 ||| a.setWidth 32).toNat = a.toNat := by simp [e]
  have h1 := shl_or_toNat (k := 8) (0#32 <<< 8 ||| a.setWidth 32) (b.setWidth 32) (by rw [e]; omega) (by rw [h0]; omega)
  have h2 := shl_or_toNat (k := 8) _ (c.setWidth 32) (by rw [e]; omega) (by rw [h1, h0, e]; omega)
  have h3 := shl_or_toNat (k := 8) _ (d.setWidth 32) (by rw [e]; omega) (by rw [h2, h1, h0, e, e]; omega)
  apply BitVec.eq_of_toNat_eq
  rw [h3, h2, h1, h0, e, e, e, BitVec.toNat_ofNat]
  omega

theorem outBE32_eq (w : U32) : outBE32 w = Spec.beBytes 4 w.toNat := by
  have key : ∀ k, ((w >>> (8 * k)) &&& 0xFF#32).setWidth 8 = BitVec.ofNat 8 (w.toNat / 256 ^ k) := by
    intro k
    apply BitVec.eq_of_toNat_eq
    rw [BitVec.toNat_setWidth, BitVec.toNat_and, BitVec.toNat_ushiftRight, Nat.shiftRight_eq_div_pow,
      pow_mul, show BitVec.toNat 0xFF#32 = 2 ^ 8 - 1 by rfl, BitVec.toNat_ofNat, Nat.and_two_pow_sub_one_eq_mod, Nat.mod_mod]
    norm_num
  have k0 := key 0; have k1 := key 1; have k2 := key 2; have k3 := key 3
  simp only [outBE32, Spec.beBytes, List.range, List.range.loop, List.map]
  exact List.cons_eq_cons.mpr ⟨k3, List.cons_eq_cons.mpr ⟨k2, List.cons_eq_cons.mpr ⟨k1, List.cons_eq_cons.mpr ⟨k0, rfl⟩⟩⟩⟩

theorem outLE32_eq (w : U32) :
    (List.range 4).map (fun j => ((w >>> (8 * j)) &&& 0xFF#32).setWidth 8) = Spec.leBytes 4 w.toNat := by
  apply List.map_congr_left
  intro k _
  apply BitVec.eq_of_toNat_eq
  rw [BitVec.toNat_setWidth, BitVec.toNat_and, BitVec.toNat_ushiftRight, Nat.shiftRight_eq_div_pow,
    pow_mul, show BitVec.toNat 0xFF#32 = 2 ^ 8 - 1 by rfl, BitVec.toNat_ofNat, Nat.and_two_pow_sub_one_eq_mod, Nat.mod_mod]
  norm_num

theorem outBE64_eq (w : U64) : outBE64 w = Spec.beBytes 8 w.toNat := by
  have key : ∀ k, ((w >>> (8 * k)) &&& 0xFF#64).setWidth 8 = BitVec.ofNat 8 (w.toNat / 256 ^ k) := by
    intro k
    apply BitVec.eq_of_toNat_eq
    rw [BitVec.toNat_setWidth, BitVec.toNat_and, BitVec.toNat_ushiftRight, Nat.shiftRight_eq_div_pow,
      pow_mul, show BitVec.toNat 0xFF#64 = 2 ^ 8 - 1 by rfl, BitVec.toNat_ofNat, Nat.and_two_pow_sub_one_eq_mod, Nat.mod_mod]
    norm_num
  simp only [outBE64, Spec.beBytes]
  apply List.map_congr_left
  intro j hj
  have hj : j < 8 := List.mem_range.mp hj
  rw [← key, show 64 - 8 - 8 * j = 8 * (8 - 1 - j) by omega]

end Verif.Proof
