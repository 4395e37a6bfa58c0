import Verif.Base.Basic

/-! Maps between bit vectors that are additive for exclusive or. -/

namespace Verif.Proof

/-- `f 0 ^ ... ^ f (n-1)` -/
def xsum {m : Nat} : Nat → (Nat → BitVec m) → BitVec m
  | 0, _ => 0#m
  | n + 1, f => xsum n f ^^^ f n

/-- Additive for exclusive or. -/
def XLin {n m : Nat} (f : BitVec n → BitVec m) : Prop := ∀ a b, f (a ^^^ b) = f a ^^^ f b

theorem XLin.zero {n m : Nat} {f : BitVec n → BitVec m} (h : XLin f) : f 0#n = 0#m := by
  have := h 0#n 0#n
  rw [BitVec.xor_self] at this
  have h2 := congrArg (fun x => x ^^^ f 0#n) this
  simp only [BitVec.xor_self, BitVec.xor_assoc, BitVec.xor_zero, BitVec.zero_xor] at h2
  exact h2.symm

theorem XLin.comp {n m k : Nat} {f : BitVec m → BitVec k} {g : BitVec n → BitVec m} (hf : XLin f) (hg : XLin g) : XLin (fun x => f (g x)) :=
  fun a b => by show f (g (a ^^^ b)) = _; rw [hg, hf]

theorem XLin.xor {n m : Nat} {f g : BitVec n → BitVec m} (hf : XLin f) (hg : XLin g) : XLin (fun x => f x ^^^ g x) :=
  fun a b => by simp only [hf a b, hg a b]; ac_rfl

theorem xlin_id {n : Nat} : XLin (fun x : BitVec n => x) := fun _ _ => rfl
theorem xlin_zero {n m : Nat} : XLin (fun _ : BitVec n => 0#m) := fun _ _ => by simp
theorem xlin_shl {n : Nat} (k : Nat) : XLin (fun x : BitVec n => x <<< k) := fun a b => BitVec.shiftLeft_xor_distrib a b k
theorem xlin_shr {n : Nat} (k : Nat) : XLin (fun x : BitVec n => x >>> k) := fun a b => BitVec.ushiftRight_xor_distrib a b k
theorem xlin_and {n : Nat} (c : BitVec n) : XLin (fun x => c &&& x) := fun a b => by
  ext i hi
  simp only [BitVec.getElem_and, BitVec.getElem_xor]
  cases c[i] <;> simp
theorem xlin_setWidth {n m : Nat} : XLin (fun x : BitVec n => x.setWidth m) := fun a b => by
  apply BitVec.eq_of_getLsbD_eq
  intro i hi
  simp [BitVec.getLsbD_setWidth, hi]
theorem xlin_extract {n : Nat} (s m : Nat) : XLin (fun x : BitVec n => x.extractLsb' s m) := fun _ _ => BitVec.extractLsb'_xor

/-- A choice by one bit. -/
theorem xlin_bit {n m : Nat} (i : Nat) (c : BitVec m) : XLin (fun x : BitVec n => if x.getLsbD i then c else 0#m) := fun a b => by
  simp only [BitVec.getLsbD_xor]
  cases a.getLsbD i <;> cases b.getLsbD i <;> simp

theorem xlin_ite {n m : Nat} {f : BitVec n → BitVec m} (c : Bool) (h : XLin f) : XLin (fun x => if c then f x else 0#m) := by
  cases c
  · simpa using xlin_zero
  · simpa using h

theorem xlin_xsum {n m : Nat} (k : Nat) (f : Nat → BitVec n → BitVec m) (h : ∀ i, XLin (f i)) : XLin (fun x => xsum k (fun i => f i x)) := by
  induction k with
  | zero => exact xlin_zero
  | succ k ih => exact XLin.xor ih (h k)

theorem xsum_congr {m : Nat} {f g : Nat → BitVec m} : ∀ n, (∀ i, i < n → f i = g i) → xsum n f = xsum n g := by
  intro n
  induction n with
  | zero => intro _; rfl
  | succ n ih => intro h; rw [xsum, xsum, ih (fun i hi => h i (by omega)), h n (by omega)]

theorem XLin.xsum {n m : Nat} {f : BitVec n → BitVec m} (h : XLin f) (g : Nat → BitVec n) : ∀ k, f (xsum k g) = Proof.xsum k (fun i => f (g i)) := by
  intro k
  induction k with
  | zero => exact h.zero
  | succ k ih => rw [Proof.xsum, h, ih, Proof.xsum]

/-- Bits of an exclusive-or sum of distinct powers of two. -/
theorem xsum_bits {m : Nat} (v : BitVec m) : ∀ n j, (xsum n (fun i => if v.getLsbD i then BitVec.twoPow m i else 0#m)).getLsbD j =
    (decide (j < n) && v.getLsbD j) := by
  intro n
  induction n with
  | zero => intro j; simp [xsum]
  | succ n ih =>
    intro j
    rw [xsum, BitVec.getLsbD_xor, ih]
    by_cases hj : j = n
    · subst hj
      by_cases hm : j < m
      · by_cases hb : v.getLsbD j
        · simp [hb, hm, BitVec.getLsbD_twoPow]
        · simp [hb]
      · rw [BitVec.getLsbD_of_ge v j (by omega)]; simp
    · have h1 : (if v.getLsbD n then BitVec.twoPow m n else 0#m).getLsbD j = false := by
        split
        · rw [BitVec.getLsbD_twoPow]; simp; omega
        · simp
      rw [h1, Bool.xor_false]
      congr 1
      simp only [decide_eq_decide]; omega

/-- A vector whose bits from `n` on are zero is the sum of its bits below `n`. -/
theorem xsum_self {m : Nat} (v : BitVec m) (n : Nat) (h : ∀ j, n ≤ j → v.getLsbD j = false) :
    v = xsum n (fun i => if v.getLsbD i then BitVec.twoPow m i else 0#m) := by
  apply BitVec.eq_of_getLsbD_eq
  intro j _
  rw [xsum_bits]
  by_cases hj : j < n
  · simp [hj]
  · rw [h j (by omega)]; simp

/-- Additive maps that agree on the powers of two below `n` agree on the vectors with bits below `n`. -/
theorem xlin_ext_below {m k : Nat} {f g : BitVec m → BitVec k} (hf : XLin f) (hg : XLin g) (n : Nat)
    (h : ∀ i, i < n → f (BitVec.twoPow m i) = g (BitVec.twoPow m i)) (v : BitVec m) (hv : ∀ j, n ≤ j → v.getLsbD j = false) : f v = g v := by
  rw [xsum_self v n hv, hf.xsum, hg.xsum]
  apply xsum_congr
  intro i hi
  split
  · exact h i hi
  · rw [hf.zero, hg.zero]

theorem xlin_ext {m k : Nat} {f g : BitVec m → BitVec k} (hf : XLin f) (hg : XLin g)
    (h : ∀ i, i < m → f (BitVec.twoPow m i) = g (BitVec.twoPow m i)) (v : BitVec m) : f v = g v :=
  xlin_ext_below hf hg m h v (fun _ hj => BitVec.getLsbD_of_ge _ _ hj)

/-! ### Carry-less product modulo `x^m` -/

/-- The sum over the bits `i` of `b` of `a` shifted by `i`. -/
def clprod {m : Nat} (a b : BitVec m) : BitVec m := xsum m (fun i => if b.getLsbD i then a <<< i else 0#m)

theorem clprod_lin_right {m : Nat} (a : BitVec m) : XLin (fun b => clprod a b) := xlin_xsum m _ (fun i => xlin_bit i _)
theorem clprod_lin_left {m : Nat} (b : BitVec m) : XLin (fun a => clprod a b) := xlin_xsum m _ (fun i => xlin_ite _ (xlin_shl i))

theorem twoPow_shl (m i k : Nat) : BitVec.twoPow m i <<< k = BitVec.twoPow m (i + k) := by
  apply BitVec.eq_of_getLsbD_eq
  intro j hj
  simp only [BitVec.getLsbD_shiftLeft, BitVec.getLsbD_twoPow, hj, decide_true, Bool.true_and]
  by_cases h : j < k
  · simp [h]; omega
  · simp only [h, decide_false, Bool.not_false, Bool.true_and]
    rw [← Bool.decide_and, ← Bool.decide_and, decide_eq_decide]
    omega

theorem xsum_single {m : Nat} (f : Nat → BitVec m) (j : Nat) (h : ∀ i, i ≠ j → f i = 0#m) : ∀ n, j < n → xsum n f = f j := by
  intro n
  induction n with
  | zero => intro h; omega
  | succ n ih =>
    intro hn
    rw [xsum]
    by_cases hj : j = n
    · subst hj
      have : xsum j f = 0#m := by
        have : ∀ k, k ≤ j → xsum k f = 0#m := by
          intro k
          induction k with
          | zero => intro _; rfl
          | succ k ihk => intro hk; rw [xsum, ihk (by omega), h k (by omega)]; simp
        exact this j (le_refl _)
      rw [this]; simp
    · rw [ih (by omega), h n (by omega)]; simp

theorem clprod_twoPow {m : Nat} (a : BitVec m) (j : Nat) (hj : j < m) : clprod a (BitVec.twoPow m j) = a <<< j := by
  rw [clprod, xsum_single _ j _ m hj]
  · rw [BitVec.getLsbD_twoPow]; simp [hj]
  · intro i hi
    rw [BitVec.getLsbD_twoPow]; simp; intro _ h; omega

theorem clprod_comm {m : Nat} (a b : BitVec m) : clprod a b = clprod b a := by
  refine xlin_ext (f := fun b => clprod a b) (g := fun b => clprod b a) (clprod_lin_right a) (clprod_lin_left a) (fun j hj => ?_) b
  show clprod a (BitVec.twoPow m j) = clprod (BitVec.twoPow m j) a
  rw [clprod_twoPow a j hj]
  refine xlin_ext (f := fun a => a <<< j) (g := fun a => clprod (BitVec.twoPow m j) a) (xlin_shl j) (clprod_lin_right _) (fun i hi => ?_) a
  show BitVec.twoPow m i <<< j = clprod (BitVec.twoPow m j) (BitVec.twoPow m i)
  rw [clprod_twoPow _ i hi, twoPow_shl, twoPow_shl, Nat.add_comm]

theorem clprod_shl_left {m : Nat} (a b : BitVec m) (k : Nat) : clprod (a <<< k) b = clprod a b <<< k := by
  refine xlin_ext (f := fun b => clprod (a <<< k) b) (g := fun b => clprod a b <<< k) (clprod_lin_right _)
    ((xlin_shl k).comp (clprod_lin_right a)) (fun j hj => ?_) b
  show clprod (a <<< k) (BitVec.twoPow m j) = clprod a (BitVec.twoPow m j) <<< k
  rw [clprod_twoPow _ j hj, clprod_twoPow _ j hj, ← BitVec.shiftLeft_add, ← BitVec.shiftLeft_add, Nat.add_comm]

theorem clprod_shl_right {m : Nat} (a b : BitVec m) (k : Nat) : clprod a (b <<< k) = clprod a b <<< k := by
  rw [clprod_comm, clprod_shl_left, clprod_comm]

theorem foldl_xsum {m : Nat} (c : Nat → Bool) (f : Nat → BitVec m) : ∀ n,
    (List.range n).foldl (fun acc i => if c i then acc ^^^ f i else acc) 0#m = xsum n (fun i => if c i then f i else 0#m) := by
  intro n
  induction n with
  | zero => rfl
  | succ n ih =>
    rw [List.range_succ, List.foldl_append, ih, xsum]
    simp only [List.foldl_cons, List.foldl_nil]
    cases c n <;> simp

end Verif.Proof
