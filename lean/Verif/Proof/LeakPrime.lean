import Verif.Model.LeakPrime
import Verif.Proof.LeakHash
import Verif.Proof.BignumOps

/-! The functions of Model/LeakPrime.lean compute what the functions without events compute. -/

namespace Verif.Proof

open Verif.Model

theorem res_eqLoop (a : List U32) : ∀ (i : Nat) (x : U32) (b : List U32), (eqLoopL i x a b).res = .ok ((List.zipWith (· ^^^ ·) a b).foldl (· ||| ·) x) := by
  induction a with
  | nil => intro i x b; cases b <;> rfl
  | cons v vs ih =>
    intro i x b
    cases b with
    | nil => rfl
    | cons r rs =>
      rw [eqLoopL]
      simp only [res_bind, res_emit, ok_bind, ih]
      rfl

theorem res_eq (a b : List U32) : (bnEqL a b).res = .ok (bnEq a b) := by
  rw [bnEqL, res_bind, res_eqLoop]; rfl

theorem res_lt (a b : List U32) : (bnLtL a b).res = .ok (bnLt a b) := by
  rw [bnLtL, res_bind, res_sub]; rfl

theorem res_shr1Loop (a : List U32) : ∀ bit : U32, (shr1LoopL bit a).res = .ok (shr1Loop bit a) := by
  induction a with
  | nil => intro bit; rfl
  | cons w ws ih =>
    intro bit
    rw [shr1LoopL]
    simp only [res_bind, res_emit, ok_bind, ih, res_pure]
    rfl

theorem res_shr1 (a : List U32) : (bnShr1L a).res = .ok (bnShr1 a) := by
  rw [bnShr1L, res_bind, res_shr1Loop]; rfl

theorem res_shlWord (v : List U32) (words : Nat) : (bnShlWordL v words).res = bnShlWord v words := by
  rw [bnShlWordL, bnShlWord]
  dsimp only
  by_cases h : words > v.length
  · rw [if_pos h, if_pos h]; rfl
  · rw [if_neg h, if_neg h]
    obtain ⟨e1, p1⟩ := loopL_fold (n := v.length - words) (s := v) (body := shlMoveL v.length words)
      (fun t n => t.set (v.length - n - 1) (t.getD (v.length - n - words - 1) 0#32)) (fun t : List U32 => t.length = v.length) rfl fun i hi t ht => by
        have h1 : v.length - i - words - 1 < t.length := by omega
        have h2 : v.length - i - 1 < t.length := by omega
        refine ⟨?_, by rw [List.length_set, ht]⟩
        rw [shlMoveL, res_bind, res_rd, rd_ok h1, ok_bind, res_wr, wr_ok _ h2, List.getD_eq_getElem _ _ h1]
    rw [res_bind, e1, ok_bind]
    generalize (List.range (v.length - words)).foldl (fun t n => t.set (v.length - n - 1) (t.getD (v.length - n - words - 1) 0#32)) v = u at p1 ⊢
    exact (loopL_fold (n := words) (s := u) (body := shlZeroL v.length words)
      (fun t n => t.set (v.length - (v.length - words + n) - 1) 0#32) (fun t : List U32 => t.length = v.length) p1 fun i hi t ht => by
        have h2 : v.length - (v.length - words + i) - 1 < t.length := by omega
        refine ⟨?_, by rw [List.length_set, ht]⟩
        rw [shlZeroL, res_wr, wr_ok _ h2]).1

theorem res_neg (a : List U32) : ∀ i, (negL i a).res = .ok (bnNeg a) := by
  induction a with
  | nil => intro i; rfl
  | cons w ws ih =>
    intro i
    rw [negL]
    simp only [res_bind, res_emit, ok_bind, ih, res_pure]
    rfl

theorem res_ite {α : Type} {c : Prop} [Decidable c] (x y : Leak α) : (if c then x else y).res = if c then x.res else y.res := by split <;> rfl

theorem res_ofOut {α : Type} (x : Out α) : (Leak.ofOut x).res = x := rfl

theorem res_normLoop : ∀ (fuel : Nat) (s : List U32) (shift : Nat), (normLoopL fuel s shift).res = normLoop fuel s shift
  | 0, s, shift => by
    rw [normLoopL, normLoop]
    simp only [res_bind, res_rd, res_emit, ok_bind]
    rfl
  | fuel + 1, s, shift => by
    rw [normLoopL, normLoop]
    simp only [res_bind, res_rd, res_emit, ok_bind, res_ite, res_shlWord, res_normLoop fuel]
    rfl

theorem res_reduceLoop : ∀ (n : Nat) (c s : List U32), (reduceLoopL n c s).res = .ok (reduceLoop n c s)
  | 0, c, s => rfl
  | n + 1, c, s => by
    rw [reduceLoopL, reduceLoop]
    simp only [res_bind, res_emit, ok_bind, res_sub, res_shr1, res_reduceLoop n]

theorem res_naiveReduce (bits k : Nat) (v p : List U32) : (bnNaiveReduceL bits k v p).res = bnNaiveReduce bits k v p := by
  rw [bnNaiveReduceL, bnNaiveReduce, res_bind, res_convert, ok_bind, res_bind, res_normLoop]
  cases normLoop (bnConvert bits k p).length (bnConvert bits k p) 0 with
  | error e => rfl
  | ok o =>
    rw [ok_bind, ok_bind]
    cases o with
    | none => rfl
    | some q =>
      dsimp only
      rw [res_bind, res_reduceLoop, ok_bind, res_convert]
      rfl

theorem res_newton (A : List U32) (r : U32) (n : Nat) : (newtonL A r n).res = rd A 0 >>= fun a => .ok (newtonStep a r) := by
  rw [newtonL, res_bind]; rfl

theorem res_recInv (bits : Nat) : ∀ A : List U32, (recInvL bits A).res = recInv bits A := by
  induction bits using Nat.strong_induction_on with
  | _ bits ih =>
    intro A
    rw [recInvL, recInv]
    by_cases h : 1 < bnN bits
    · rw [dif_pos h, dif_pos h]
      simp only [res_bind, res_slice, ih _ (recInv_width_lt h), res_convert, ok_bind, res_mul, res_ofU32, res_sub]
      rfl
    · rw [dif_neg h, dif_neg h]
      simp only [res_bind, res_rd, res_loop, res_newton, res_ofU32]
      cases hr : rd A 0 with
      | error e => rfl
      | ok a => rfl

theorem res_montNew (K : Nat) (N : List U32) : (montNewL K N).res = montNew K N := by
  rw [montNewL, montNew]
  simp only [res_bind, res_recInv, res_neg, ok_bind, res_ofU32, res_add, res_setBit, res_naiveReduce, res_convert, res_redc, res_mul]
  rfl

theorem res_mrLoop (K : Nat) (st : MontState) (m : List U32) : ∀ (k : Nat) (x : List U32), (mrLoopL K st m k x).res = mrLoop K st m k x
  | 0, x => rfl
  | k + 1, x => by
    rw [mrLoopL, mrLoop]
    simp only [res_bind, res_emit, ok_bind, res_montMul, res_montTo, res_eq, res_ite, res_mrLoop K st m k]
    rfl

theorem res_mrOneLoop (K : Nat) (st : MontState) (d : List U32) (r a : Nat) (m : List U32) : (mrOneLoopL K st d r a m).res = mrOneLoop K st d r a m := by
  rw [mrOneLoopL, mrOneLoop]
  simp only [res_bind, res_emit, ok_bind, res_ofU32, res_montOf, res_montTo, res_montExp, res_eq, res_ite, res_mrLoop, res_pure]
  refine congrArg _ (funext fun b => congrArg _ (funext fun e => congrArg _ (funext fun x => ?_)))
  cases hx : montTo K st x with
  | error e => rfl
  | ok xv =>
    rw [ok_bind, ok_bind]
    cases h1 : bnEq xv (bnOfU32 K 1#32)
    · rw [if_neg Bool.false_ne_true, ok_bind, h1, Bool.false_or]; rfl
    · rw [if_pos rfl, ok_bind, h1, Bool.true_or, if_pos rfl]; rfl

theorem res_oddPart : ∀ (k : Nat) (d : List U32) (r : Nat), (oddPartL k d r).res = oddPart k d r
  | 0, d, r => by
    rw [oddPartL, oddPart]
    simp only [res_bind, res_emit, ok_bind, res_bit, res_ite, res_pure, res_ofOut]
    rfl
  | k + 1, d, r => by
    rw [oddPartL, oddPart]
    simp only [res_bind, res_emit, ok_bind, res_bit, res_ite, res_pure, res_shr1, res_oddPart k]
    rfl

theorem res_mrBases (K : Nat) (st : MontState) (mgv : List U32) (r : Nat) (m : List U32) : ∀ (l : List Nat) (i : Nat), (mrBasesL K st mgv r m i l).res = mrBases K st mgv r m l
  | [], i => rfl
  | p :: ps, i => by
    rw [mrBasesL, mrBases]
    simp only [res_bind, res_emit, ok_bind, res_mrOneLoop, res_ite, res_pure, res_mrBases K st mgv r m ps]
    refine congrArg _ (funext fun b => ?_)
    cases b <;> rfl

theorem res_find (K : Nat) (num : List U32) : ∀ (l : List Nat) (i : Nat), (findL K num i l).res = .ok (l.any fun p => bnEq num (bnOfU32 K (BitVec.ofNat 32 p)))
  | [], i => rfl
  | p :: ps, i => by
    rw [findL]
    simp only [res_bind, res_emit, ok_bind, res_ofU32, res_eq, res_ite, res_pure, res_find K num ps, List.any_cons]
    cases bnEq num (bnOfU32 K (BitVec.ofNat 32 p)) <;> rfl

theorem res_mrPrime (K : Nat) (num : List U32) : (mrPrimeL K num).res = mrPrime K num := by
  rw [mrPrimeL, mrPrime, mrBigL]
  simp only [res_bind, res_emit, ok_bind, res_ofU32, res_lt, res_ite, res_find, res_bit, res_sub, res_oddPart, res_montNew, res_montOf, res_mrBases, res_pure]
  rfl

theorem res_randValue (s : RandState) : (randValueL s).res = .ok (randValue s) := by
  rw [randValueL, res_bind, res_emit, ok_bind, res_ite]
  split <;> rfl

theorem res_splitValue (b : Nat) : ∀ (per left i : Nat) (v : U64), (splitValueL b i per left v).res = .ok (splitValue b per left v)
  | 0, left, i, v => by cases left <;> rfl
  | per + 1, 0, i, v => rfl
  | per + 1, left + 1, i, v => by
    rw [splitValueL]
    simp only [res_bind, res_emit, ok_bind, res_splitValue b per left, res_pure]
    rfl

theorem res_genRandom (b per : Nat) (left : Nat) : ∀ (i : Nat) (s : RandState), (genRandomL b per i left s).res = .ok (genRandomB b per left s) := by
  induction left using Nat.strong_induction_on with
  | _ left ih =>
    intro i s
    rw [genRandomL, genRandomB]
    by_cases h : left = 0 ∨ per = 0
    · rw [dif_pos h, dif_pos h]; rfl
    · rw [dif_neg h, dif_neg h]
      simp only [res_bind, res_emit, ok_bind, res_randValue, res_splitValue, ih (left - per) (by omega), res_pure]

theorem res_primeCandidate (K : Nat) (strict : Bool) (s : RandState) : (primeCandidateL K strict s).res = primeCandidate K strict s := by
  rw [primeCandidateL, primeCandidate]
  simp only [res_bind, res_genRandom, ok_bind, res_setBit, res_ite, res_pure, res_ofOut]
  rw [bnRandom, genRandom32]
  refine congrArg _ (funext fun c => congrArg _ (funext fun d => ?_))
  split
  · split <;> rfl
  · rfl

theorem res_randomPrime (K : Nat) (strict : Bool) : ∀ (fuel : Nat) (s : RandState), (randomPrimeL K strict fuel s).res = randomPrime K strict fuel s
  | 0, s => rfl
  | fuel + 1, s => by
    rw [randomPrimeL, randomPrime]
    simp only [res_bind, res_primeCandidate, res_mrPrime, res_emit, ok_bind, res_ite, res_pure, res_randomPrime K strict fuel]
    rfl

end Verif.Proof
