import Verif.Model.Leak
import Verif.Proof.Simd

/-! The functions with events compute what the functions without events compute. -/

namespace Verif.Proof

open Verif.Model

theorem res_pure {α : Type} (a : α) : (pure a : Leak α).res = .ok a := rfl

theorem res_bind {α β : Type} (x : Leak α) (f : α → Leak β) : (x >>= f).res = x.res >>= fun a => (f a).res := by
  obtain ⟨r, t⟩ := x
  cases r <;> rfl

theorem res_emit (o : Obs) : (emit o).res = .ok () := rfl
theorem res_rd {α : Type} (v : List α) (i : Nat) : (rdL v i).res = rd v i := rfl
theorem res_wr {α : Type} (v : List α) (i : Nat) (x : α) : (wrL v i x).res = wr v i x := rfl

theorem bind_ok_id {α : Type} (x : Out α) : (x >>= fun a => .ok a) = x := by cases x <;> rfl

theorem res_passes {σ : Type} (body : σ → Nat → Leak σ) (s : σ) : ∀ n, (passesL n s body).res = loop n s (fun s i => (body s i).res)
  | 0 => rfl
  | n + 1 => by
    rw [passesL, res_bind, res_passes body s n, loop]
    refine congrArg (fun f => (loop n s fun s i => (body s i).res) >>= f) (funext fun t => ?_)
    rw [res_bind, res_emit]; rfl

theorem res_loop {σ : Type} (n : Nat) (s : σ) (body : σ → Nat → Leak σ) : (loopL n s body).res = loop n s (fun s i => (body s i).res) := by
  rw [loopL, res_bind, res_passes]
  cases loop n s (fun s i => (body s i).res) <;> rfl

theorem res_bit (v : List U32) (n : Nat) : (bnBitL v n).res = bnBit v n := by
  rw [bnBitL, res_bind]; rfl

theorem res_setBit (v : List U32) (n : Nat) : (bnSetBitL v n).res = bnSetBit v n := by
  rw [bnSetBitL, res_bind]; rfl

theorem res_clearBit (v : List U32) (n : Nat) : (bnClearBitL v n).res = bnClearBit v n := by
  rw [bnClearBitL, res_bind]; rfl

theorem res_ofU32 (bits : Nat) (x : U32) : (bnOfU32L bits x).res = .ok (bnOfU32 bits x) := rfl

theorem res_ofInit (bits : Nat) (l : List U32) : (bnOfInitL bits l).res = bnOfInit bits l := by
  rw [bnOfInitL, res_loop, bnOfInit]
  refine congrArg (loop _ _) (funext fun v => funext fun n => ?_)
  rw [res_bind]; rfl

theorem res_convertL (value : List U32) (k : Nat) : ∀ n, (convertL value k n).res = .ok ((List.range n).map (fun n => if n < k then value.getD n 0#32 else 0#32))
  | 0 => rfl
  | n + 1 => by
    rw [convertL, res_bind, res_convertL value k n, ok_bind, res_bind, res_emit, ok_bind, List.range_succ, List.map_append, List.map_singleton]
    split <;> rfl

theorem res_convert (bits k : Nat) (v : List U32) : (bnConvertL bits k v).res = .ok (bnConvert bits k v) := by
  rw [bnConvertL, res_bind, res_convertL, ok_bind]; rfl

theorem res_addLoop (a : List U32) : ∀ (i : Nat) (t : U64) (b : List U32), (addLoopL i t a b).res = .ok (addLoop t a b) := by
  induction a with
  | nil => intro i t b; cases b <;> rfl
  | cons v vs ih =>
    intro i t b
    cases b with
    | nil => rfl
    | cons r rs =>
      rw [addLoopL, addLoop]
      simp only [res_bind, res_emit, ok_bind, ih, res_pure]

theorem res_add (a b : List U32) : (bnAddL a b).res = .ok (bnAdd a b) := by
  rw [bnAddL, res_bind, res_addLoop]; rfl

theorem res_subLoop (a : List U32) : ∀ (i : Nat) (t : U64) (b : List U32), (subLoopL i t a b).res = .ok (subLoop t a b) := by
  induction a with
  | nil => intro i t b; cases b <;> rfl
  | cons v vs ih =>
    intro i t b
    cases b with
    | nil => rfl
    | cons r rs =>
      rw [subLoopL, subLoop]
      simp only [res_bind, res_emit, ok_bind, ih, res_pure]

theorem res_sub (a b : List U32) : (bnSubL a b).res = .ok (bnSub a b) := by
  rw [bnSubL, res_bind, res_subLoop]; rfl

theorem res_slice (k : Nat) (v : List U32) (start : Nat) : (bnSliceL k v start).res = bnSlice k v start := by
  rw [bnSliceL, res_loop, bnSlice]
  refine congrArg (loop _ _) (funext fun v => funext fun n => ?_)
  rw [res_bind]; rfl

theorem res_zip (f : U32 → U32 → U32) (a : List U32) : ∀ (i : Nat) (b : List U32), (zipL i f a b).res = .ok (List.zipWith f a b) := by
  induction a with
  | nil => intro i b; cases b <;> rfl
  | cons v vs ih =>
    intro i b
    cases b with
    | nil => rfl
    | cons r rs =>
      rw [zipL, List.zipWith]
      simp only [res_bind, res_emit, ok_bind, ih, res_pure]

theorem res_mulWordLoop (b : U32) (a : List U32) : ∀ (i : Nat) (t : U64), (mulWordLoopL i t b a).res = .ok (mulWordLoop t b a) := by
  induction a with
  | nil => intro i t; rfl
  | cons v vs ih =>
    intro i t
    rw [mulWordLoopL, mulWordLoop]
    simp only [res_bind, res_emit, ok_bind, ih, res_pure]

theorem res_mulWord (a : List U32) (b : U32) : (bnMulWordL a b).res = .ok (bnMulWord a b) := res_mulWordLoop b a 0 0#64

theorem res_mul (bits : Nat) (a b : List U32) : (bnMulL bits a b).res = bnMul bits a b := by
  rw [bnMulL, bnMul]
  dsimp only
  rw [res_loop]
  refine congrArg (loop _ _) (funext fun x => funext fun i => ?_)
  rw [res_bind, res_loop]
  refine congrArg₂ (fun (l : Out (List U32 × U64)) f => l >>= f) ?_ rfl
  refine congrArg (loop _ _) (funext fun p => funext fun j => ?_)
  simp only [res_bind, res_rd, res_wr, res_pure]
  rfl

theorem res_ones (doswap : Bool) (a : List U32) : ∀ i, (onesL i doswap a).res = .ok (List.replicate a.length (0xffffffff#32 * (if doswap then 1#32 else 0#32))) := by
  induction a with
  | nil => intro i; rfl
  | cons v vs ih =>
    intro i
    rw [onesL, List.length_cons, List.replicate_succ]
    simp only [res_bind, res_emit, ok_bind, ih, res_pure]

theorem res_swap (doswap : Bool) (a b : List U32) : (bnCtimeSwapL doswap a b).res = .ok (bnCtimeSwap doswap a b) := by
  rw [bnCtimeSwapL]
  simp only [res_bind, res_ones, res_zip, ok_bind, res_pure]
  rfl

theorem res_ecAdd (a b : List U32) : (ecAddL a b).res = ecAdd a b := by
  rw [ecAddL, ecAdd]
  simp only [res_bind, res_add, res_ofU32, res_rd, res_wr, ok_bind]

theorem res_ecMulWord (a : List U32) (b : U32) : (ecMulWordL a b).res = ecMulWord a b := by
  rw [ecMulWordL, ecMulWord]
  simp only [res_bind, res_mulWord, res_slice, res_ofInit, res_rd, res_ecAdd, ok_bind]

theorem res_ecMul (a b : List U32) : (ecMulL a b).res = ecMul a b := by
  rw [ecMulL, ecMul]
  simp only [res_bind, res_mul, res_mulWord, res_slice, res_ofU32, res_rd, res_ecAdd, ok_bind]

theorem res_ecSub (a b : List U32) : (ecSubL a b).res = .ok (ecSub a b) := by
  rw [ecSubL, ecSub]
  simp only [res_bind, res_add, res_sub, res_emit, ok_bind, res_pure]

theorem res_applyModulus (a : List U32) : (ecApplyModulusL a).res = .ok (ecApplyModulus a) := by
  rw [ecApplyModulusL, ecApplyModulus]
  simp only [res_bind, res_add, res_sub, res_emit, ok_bind, res_pure]

theorem res_normalize (a : List U32) : (ecNormalizeL a).res = ecNormalize a := by
  rw [ecNormalizeL, ecNormalize]
  simp only [res_bind, res_clearBit, res_setBit]

theorem res_ecSquareN (a : List U32) : ∀ n, (ecSquareNL n a).res = ecSquareN n a
  | 0 => rfl
  | n + 1 => by
    rw [ecSquareNL, res_bind, res_ecSquareN a n, ecSquareN, ecSquareN, loop]
    simp only [ecSquareL, res_ecMul]
    rfl

theorem res_inverse (a : List U32) : (ecInverseL a).res = ecInverse a := by
  rw [ecInverseL, ecInverse]
  simp only [res_bind, ecSquareL, ecSquare, res_ecMul, res_ecSquareN]

theorem res_ladder (k u : List U32) (s : LadderState) (t : Nat) : (ladderBodyL k u s t).res = ladderBody k u s t := by
  rw [ladderBodyL, ladderBody]
  simp only [res_bind, res_bit, res_swap, ecSquareL, ecSquare, res_ecMul, res_ecAdd, res_ecSub, res_ecMulWord, ok_bind, res_pure]
  rfl

theorem res_x25519 (k u : List U32) : (x25519L k u).res = x25519 k u := by
  rw [x25519L, x25519]
  simp only [res_bind, res_normalize, res_ofInit, res_loop, res_ladder, res_swap, res_inverse, res_ecMul, res_applyModulus, ok_bind]
  rfl

theorem res_redc (K : Nat) (N Ninv v : List U32) : (redcL K N Ninv v).res = redc K N Ninv v := by
  rw [redcL, redc]
  simp only [res_bind, res_slice, res_mul, res_add, res_sub, res_emit, ok_bind, res_pure]
  rfl

theorem res_montOf (K : Nat) (st : MontState) (x : List U32) : (montOfL K st x).res = montOf K st x := by
  rw [montOfL, montOf]
  simp only [res_bind, res_mul, res_redc]

theorem res_montMul (K : Nat) (st : MontState) (a b : List U32) : (montMulL K st a b).res = montMul K st a b := by
  rw [montMulL, montMul]
  simp only [res_bind, res_mul, res_redc]

theorem res_montSquare (K : Nat) (st : MontState) (a : List U32) : (montSquareL K st a).res = montSquare K st a := by
  rw [montSquareL, montSquare]
  simp only [res_bind, res_mul, res_redc, bnSquare]

theorem res_montExp (K : Nat) (st : MontState) (a e : List U32) : (montExpL K st a e).res = montExp K st a e := by
  rw [montExpL, montExp]
  simp only [res_bind, res_ofU32, ok_bind, res_montOf, res_loop, expPassL, res_bit, res_emit, res_montMul, res_montSquare, res_pure]
  rfl

theorem res_montTo (K : Nat) (st : MontState) (a : List U32) : (montToL K st a).res = montTo K st a := by
  rw [montToL, montTo]
  simp only [res_bind, res_convert, res_redc, ok_bind]

theorem res_rsadp (N : Nat) (k : RsaPriv) (m : List U32) : (rsadpL N k m).res = rsadp N k m := by
  rw [rsadpL, rsadp]
  simp only [res_bind, res_montOf, res_montExp, res_montTo]

end Verif.Proof
