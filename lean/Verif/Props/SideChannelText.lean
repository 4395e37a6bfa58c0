import Verif.Model.LeakText
import Verif.Props.SideChannelHash

/-! C129: base64 reveals the data through its tables. -/

namespace Verif.Props

open Verif.Model Verif.Proof

/-! ### the run with events computes the same text -/

theorem lookup_length (charSet : Base64CharSet) : (getLookupFor charSet).length = 64 := by cases charSet <;> decide +kernel

theorem and63 (x : U32) : (x &&& 0x3F#32).toNat < 64 := by
  rw [BitVec.toNat_and]; exact Nat.lt_succ_of_le Nat.and_le_right

theorem encAt_res {e : List Byte} (h : e.length = 64) (x : U32) : (encAtL e x).res = .ok (encAt e x) := rdL_in 0#8 (by rw [h]; exact and63 x)

theorem encAt_trace (e : List Byte) (x : U32) : (encAtL e x).trace = [.addr (x &&& 0x3F#32).toNat] := rfl

theorem b64Loop_res {e : List Byte} (h : e.length = 64) (nl : Bool) : ∀ (data : List Byte) (st : B64State), (b64LoopL e nl st data).res = .ok (data.foldl (b64Step e nl) st)
  | [], _ => rfl
  | b :: data, st => by
    rw [b64LoopL, emit_bind, List.foldl_cons, b64Step]
    dsimp only
    rw [emit_bind]
    by_cases hc : st.count + 1 = 3
    · rw [if_pos hc, if_pos hc, res_ok_bind (encAt_res h _), res_ok_bind (encAt_res h _), res_ok_bind (encAt_res h _), res_ok_bind (encAt_res h _), emit_bind]
      by_cases hl : st.blocksOnLine + 1 = 19
      · rw [if_pos hl, if_pos hl, emit_bind]; exact b64Loop_res h nl data _
      · rw [if_neg hl, if_neg hl]; exact b64Loop_res h nl data _
    · rw [if_neg hc, if_neg hc]; exact b64Loop_res h nl data _

theorem base64_res (data : List Byte) (nl eqs : Bool) (cs : Base64CharSet) : (base64L data nl eqs cs).res = .ok (base64 data nl eqs cs) := by
  have h := lookup_length cs
  rw [base64L, res_ok_bind (b64Loop_res h nl data _), base64]
  generalize data.foldl (b64Step (getLookupFor cs) nl) ⟨[], 0#32, 0, 0⟩ = st
  rw [b64FinishL, emit_bind, b64Finish]
  by_cases h1 : st.count = 1
  · rw [if_pos h1, res_ok_bind (encAt_res h _), res_ok_bind (encAt_res h _), emit_bind, emit_bind, if_pos h1]; rfl
  · rw [if_neg h1, emit_bind, if_neg h1]
    by_cases h2 : st.count = 2
    · rw [if_pos h2, res_ok_bind (encAt_res h _), res_ok_bind (encAt_res h _), res_ok_bind (encAt_res h _), emit_bind, emit_bind, if_pos h2]; rfl
    · rw [if_neg h2, emit_bind, if_neg h2]; rfl

theorem valueOf_length : valueOf.length = 256 := by decide +kernel

theorem b64dLoop_res : ∀ (str : List Byte) (st : B64DState), (b64dLoopL st str).res = .ok (str.foldl b64dStep st)
  | [], _ => rfl
  | v :: str, st => by
    rw [b64dLoopL, emit_bind, rd_bind (-1) (by rw [valueOf_length]; exact v.isLt), emit_bind, List.foldl_cons, b64dStep]
    dsimp only
    by_cases hr : valueOf.getD v.toNat (-1) = -1
    · rw [if_pos hr, if_pos hr]; exact b64dLoop_res str st
    · rw [if_neg hr, if_neg hr, emit_bind]
      by_cases hc : st.count + 1 ≠ 4
      · rw [if_pos hc, if_pos hc]; exact b64dLoop_res str _
      · rw [if_neg hc, if_neg hc]; exact b64dLoop_res str _

theorem base64d_res (str : List Byte) : (base64dL str).res = .ok (base64d str) := by
  rw [base64dL, res_ok_bind (b64dLoop_res str _), emit_bind, emit_bind]; rfl

/-! ### decoding -/

theorem te {β : Type} (o : Obs) (f : Unit → Leak β) : (emit o >>= f).trace = o :: (f ()).trace := rfl

theorem tenc {β : Type} {e : List Byte} (h : e.length = 64) (x : U32) (f : Byte → Leak β) :
    (encAtL e x >>= f).trace = .addr (x &&& 0x3F#32).toNat :: (f (encAt e x)).trace := trace_bind (encAt_res h x) f

theorem tval {β : Type} (v : Byte) (f : Int → Leak β) : (rdL valueOf v.toNat >>= f).trace = .addr v.toNat :: (f (valueOf.getD v.toNat (-1))).trace :=
  trace_bind (rdL_in (-1) (by rw [valueOf_length]; exact v.isLt)) f

theorem b64d_trace : ∀ (s s' : List Byte) (st : B64DState) (t t' : List Obs), (b64dLoopL st s).trace ++ t = (b64dLoopL st s').trace ++ t' → s = s'
  | [], [], _, _, _, _ => rfl
  | [], _ :: _, _, _, _, e => by
    rw [b64dLoopL, b64dLoopL, te, te] at e
    exact absurd (List.cons.inj e).1 (by decide)
  | _ :: _, [], _, _, _, e => by
    rw [b64dLoopL, b64dLoopL, te, te] at e
    exact absurd (List.cons.inj e).1 (by decide)
  | v :: s, v' :: s', st, t, t', e => by
    rw [b64dLoopL, b64dLoopL, te, te, tval, tval] at e
    obtain ⟨_, e⟩ := List.cons.inj e
    obtain ⟨e1, e⟩ := List.cons.inj e
    obtain rfl : v = v' := BitVec.eq_of_toNat_eq (Obs.addr.inj e1)
    rw [te, te] at e
    obtain ⟨_, e⟩ := List.cons.inj e
    congr 1
    by_cases hr : valueOf.getD v.toNat (-1) = -1
    · rw [if_pos hr, if_pos hr] at e; exact b64d_trace s s' st t t' e
    · rw [if_neg hr, if_neg hr, te, te] at e
      obtain ⟨_, e⟩ := List.cons.inj e
      by_cases hc : st.count + 1 ≠ 4
      · rw [if_pos hc, if_pos hc] at e; exact b64d_trace s s' _ t t' e
      · rw [if_neg hc, if_neg hc] at e; exact b64d_trace s s' _ t t' e

/-! ### encoding -/

theorem idx (x : U32) : (x &&& 0x3F#32).toNat = x.toNat % 64 := by
  rw [BitVec.toNat_and]; exact Nat.and_two_pow_sub_one_eq_mod _ 6

theorem push_toNat (v : U32) (b : Byte) : ((v <<< 8) ||| b.setWidth 32).toNat = v.toNat % 2 ^ 24 * 256 + b.toNat := by
  have hb := b.isLt
  rw [BitVec.toNat_or, BitVec.toNat_shiftLeft, BitVec.toNat_setWidth, Nat.mod_eq_of_lt (show b.toNat < 2 ^ 32 by omega)]
  have e : v.toNat <<< 8 % 2 ^ 32 = (v.toNat % 2 ^ 24) <<< 8 := by rw [Nat.shiftLeft_eq, Nat.shiftLeft_eq]; omega
  rw [e, ← Nat.shiftLeft_add_eq_or_of_lt hb, Nat.shiftLeft_eq]

theorem shr_toNat (x : U32) (k : Nat) : (x >>> k).toNat = x.toNat / 2 ^ k := by rw [BitVec.toNat_ushiftRight, Nat.shiftRight_eq_div_pow]

theorem shl_toNat (x : U32) (k : Nat) : (x <<< k).toNat = x.toNat * 2 ^ k % 2 ^ 32 := by rw [BitVec.toNat_shiftLeft, Nat.shiftLeft_eq]

theorem digits4 (x : Nat) : x % 2 ^ 24 = x / 2 ^ 18 % 64 * 2 ^ 18 + x / 2 ^ 12 % 64 * 2 ^ 12 + x / 2 ^ 6 % 64 * 2 ^ 6 + x % 64 := by omega

theorem digits3 (x : Nat) : x % 2 ^ 16 = x / 2 ^ 10 % 64 * 2 ^ 10 + x / 2 ^ 4 % 64 * 2 ^ 4 + x * 2 ^ 2 % 2 ^ 32 % 64 / 4 := by omega

theorem digits2 (x : Nat) : x % 2 ^ 8 = x / 2 ^ 2 % 64 * 2 ^ 2 + x * 2 ^ 4 % 2 ^ 32 % 64 / 16 := by omega

theorem low8' (v b : Nat) (hb : b < 256) : (v % 2 ^ 24 * 256 + b) % 2 ^ 8 = b := by omega

theorem step16 (y b : Nat) (hb : b < 256) : (y % 2 ^ 24 * 256 + b) % 2 ^ 16 = y % 2 ^ 8 * 256 + b := by omega

theorem step24 (y b : Nat) (hb : b < 256) : (y % 2 ^ 24 * 256 + b) % 2 ^ 24 = y % 2 ^ 16 * 256 + b := by omega

theorem low16 (v a b : Nat) (ha : a < 256) (hb : b < 256) : ((v % 2 ^ 24 * 256 + a) % 2 ^ 24 * 256 + b) % 2 ^ 16 = a * 256 + b := by
  rw [step16 _ _ hb, low8' _ _ ha]

theorem low24 (v a b c : Nat) (ha : a < 256) (hb : b < 256) (hc : c < 256) :
    (((v % 2 ^ 24 * 256 + a) % 2 ^ 24 * 256 + b) % 2 ^ 24 * 256 + c) % 2 ^ 24 = (a * 256 + b) * 256 + c := by
  rw [step24 _ _ hc, low16 _ _ _ ha hb]

/-- `(value << 8) | b` -/
def push (v : U32) (b : Byte) : U32 := (v <<< 8) ||| b.setWidth 32

theorem bytes1 {v v' : U32} {a a' : Byte} (h1 : (push v a).toNat / 2 ^ 2 % 64 = (push v' a').toNat / 2 ^ 2 % 64)
    (h2 : (push v a).toNat * 2 ^ 4 % 2 ^ 32 % 64 = (push v' a').toNat * 2 ^ 4 % 2 ^ 32 % 64) : a = a' := by
  have d1 := digits2 (push v a).toNat
  rw [h1, h2, ← digits2, push, push_toNat, low8' _ _ a.isLt, push, push_toNat, low8' _ _ a'.isLt] at d1
  exact BitVec.eq_of_toNat_eq d1

theorem bytes2 {v v' : U32} {a a' b b' : Byte} (h1 : (push (push v a) b).toNat / 2 ^ 10 % 64 = (push (push v' a') b').toNat / 2 ^ 10 % 64)
    (h2 : (push (push v a) b).toNat / 2 ^ 4 % 64 = (push (push v' a') b').toNat / 2 ^ 4 % 64)
    (h3 : (push (push v a) b).toNat * 2 ^ 2 % 2 ^ 32 % 64 = (push (push v' a') b').toNat * 2 ^ 2 % 2 ^ 32 % 64) : a = a' ∧ b = b' := by
  have d1 := digits3 (push (push v a) b).toNat
  rw [h1, h2, h3, ← digits3, push, push_toNat, push, push_toNat, low16 _ _ _ a.isLt b.isLt, push, push_toNat, push, push_toNat, low16 _ _ _ a'.isLt b'.isLt] at d1
  have lb := b.isLt
  have lb' := b'.isLt
  exact ⟨BitVec.eq_of_toNat_eq (by omega), BitVec.eq_of_toNat_eq (by omega)⟩

theorem bytes3 {v v' : U32} {a a' b b' c c' : Byte}
    (h1 : (push (push (push v a) b) c).toNat / 2 ^ 18 % 64 = (push (push (push v' a') b') c').toNat / 2 ^ 18 % 64)
    (h2 : (push (push (push v a) b) c).toNat / 2 ^ 12 % 64 = (push (push (push v' a') b') c').toNat / 2 ^ 12 % 64)
    (h3 : (push (push (push v a) b) c).toNat / 2 ^ 6 % 64 = (push (push (push v' a') b') c').toNat / 2 ^ 6 % 64)
    (h4 : (push (push (push v a) b) c).toNat % 64 = (push (push (push v' a') b') c').toNat % 64) : a = a' ∧ b = b' ∧ c = c' := by
  have d1 := digits4 (push (push (push v a) b) c).toNat
  rw [h1, h2, h3, h4, ← digits4, push, push_toNat, push, push_toNat, push, push_toNat, low24 _ _ _ _ a.isLt b.isLt c.isLt, push, push_toNat, push, push_toNat, push,
    push_toNat, low24 _ _ _ _ a'.isLt b'.isLt c'.isLt] at d1
  have lb := b.isLt
  have lb' := b'.isLt
  have lc := c.isLt
  have lc' := c'.isLt
  exact ⟨BitVec.eq_of_toNat_eq (by omega), BitVec.eq_of_toNat_eq (by omega), BitVec.eq_of_toNat_eq (by omega)⟩

section
variable {e : List Byte} (he : e.length = 64) (nl eqs : Bool)

/-- The events from a state on -/
def runOn (e : List Byte) (nl eqs : Bool) (out : List Byte) (v : U32) (count bl : Nat) (data : List Byte) : List Obs :=
  (b64LoopL e nl ⟨out, v, count, bl⟩ data).trace ++ (b64FinishL e nl eqs (data.foldl (b64Step e nl) ⟨out, v, count, bl⟩)).trace

theorem runOn_nil (out : List Byte) (v : U32) (count bl : Nat) : runOn e nl eqs out v count bl [] = .branch false :: (b64FinishL e nl eqs ⟨out, v, count, bl⟩).trace := rfl

theorem runOn_push (out : List Byte) (v : U32) (count bl : Nat) (hc : count + 1 ≠ 3) (b : Byte) (data : List Byte) :
    runOn e nl eqs out v count bl (b :: data) = .branch true :: .branch false :: runOn e nl eqs out (push v b) (count + 1) bl data := by
  rw [runOn, b64LoopL, te, te, List.foldl_cons, b64Step]
  dsimp only
  rw [if_neg hc, if_neg hc, decide_eq_false hc]
  rfl

include he in
theorem runOn_block (out : List Byte) (v : U32) (bl : Nat) (b : Byte) (data : List Byte) : ∃ out' : List Byte,
    runOn e nl eqs out v 2 bl (b :: data) = .branch true :: .branch true ::
      .addr ((push v b).toNat / 2 ^ 18 % 64) :: .addr ((push v b).toNat / 2 ^ 12 % 64) :: .addr ((push v b).toNat / 2 ^ 6 % 64) :: .addr ((push v b).toNat % 64) ::
      .branch (bl + 1 = 19) :: ((if bl + 1 = 19 then [Obs.branch nl] else []) ++ runOn e nl eqs out' (push v b) 0 (if bl + 1 = 19 then 0 else bl + 1) data) := by
  have e0 : ∀ x : U32, (x >>> 0).toNat = x.toNat := fun x => by rw [shr_toNat, Nat.pow_zero, Nat.div_one]
  have hp : (v <<< 8) ||| b.setWidth 32 = push v b := rfl
  by_cases hl : bl + 1 = 19
  · refine ⟨if nl then out ++ [encAt e (push v b >>> 18), encAt e (push v b >>> 12), encAt e (push v b >>> 6), encAt e (push v b >>> 0)] ++ [0x0a#8]
      else out ++ [encAt e (push v b >>> 18), encAt e (push v b >>> 12), encAt e (push v b >>> 6), encAt e (push v b >>> 0)], ?_⟩
    rw [runOn, b64LoopL, te, te, List.foldl_cons, b64Step]
    dsimp only
    rw [hp, if_pos rfl, if_pos rfl, decide_eq_true rfl, tenc he, tenc he, tenc he, tenc he, te, if_pos hl, if_pos hl, te, idx, idx, idx, idx, shr_toNat, shr_toNat, shr_toNat, e0,
      if_pos hl, if_pos hl]
    rfl
  · refine ⟨out ++ [encAt e (push v b >>> 18), encAt e (push v b >>> 12), encAt e (push v b >>> 6), encAt e (push v b >>> 0)], ?_⟩
    rw [runOn, b64LoopL, te, te, List.foldl_cons, b64Step]
    dsimp only
    rw [hp, if_pos rfl, if_pos rfl, decide_eq_true rfl, tenc he, tenc he, tenc he, tenc he, te, if_neg hl, if_neg hl, idx, idx, idx, idx, shr_toNat, shr_toNat, shr_toNat, e0,
      if_neg hl, if_neg hl]
    rfl

include he in
theorem finish1 (out : List Byte) (v : U32) (bl : Nat) :
    (b64FinishL e nl eqs ⟨out, v, 1, bl⟩).trace = .branch true :: .addr (v.toNat / 2 ^ 2 % 64) :: .addr (v.toNat * 2 ^ 4 % 2 ^ 32 % 64) :: [.branch eqs, .branch nl] := by
  rw [b64FinishL, te, if_pos rfl, tenc he, tenc he, idx, idx, shr_toNat, shl_toNat]
  rfl

include he in
theorem finish2 (out : List Byte) (v : U32) (bl : Nat) :
    (b64FinishL e nl eqs ⟨out, v, 2, bl⟩).trace = .branch false :: .branch true :: .addr (v.toNat / 2 ^ 10 % 64) :: .addr (v.toNat / 2 ^ 4 % 64) ::
      .addr (v.toNat * 2 ^ 2 % 2 ^ 32 % 64) :: [.branch eqs, .branch nl] := by
  rw [b64FinishL, te, if_neg (by show ¬ (2 = 1); omega), te, if_pos rfl, tenc he, tenc he, tenc he, idx, idx, idx, shr_toNat, shr_toNat, shl_toNat]
  rfl

include he in
theorem runOn_inj : ∀ (k : Nat) (data data' out out' : List Byte) (v v' : U32) (bl : Nat), data.length < k →
    runOn e nl eqs out v 0 bl data = runOn e nl eqs out' v' 0 bl data' → data = data' := by
  intro k
  induction k with
  | zero => intro data data' _ _ _ _ _ hk; exact absurd hk (Nat.not_lt_zero _)
  | succ k ih =>
    intro data data' out out' v v' bl hk h
    match data, data' with
    | [], [] => rfl
    | [], a :: d => rw [runOn_nil, runOn_push _ _ _ _ _ _ (by decide)] at h; exact absurd (List.cons.inj h).1 (by decide)
    | a :: d, [] => rw [runOn_nil, runOn_push _ _ _ _ _ _ (by decide)] at h; exact absurd (List.cons.inj h).1 (by decide)
    | a :: d, a' :: d' =>
      rw [runOn_push _ _ _ _ _ _ (by decide), runOn_push _ _ _ _ _ _ (by decide)] at h
      replace h := (List.cons.inj (List.cons.inj h).2).2
      match d, d' with
      | [], [] =>
        rw [runOn_nil, runOn_nil, finish1 he, finish1 he] at h
        replace h := (List.cons.inj (List.cons.inj h).2).2
        obtain ⟨h1, h⟩ := List.cons.inj h
        obtain ⟨h2, _⟩ := List.cons.inj h
        rw [bytes1 (Obs.addr.inj h1) (Obs.addr.inj h2)]
      | [], b :: d => rw [runOn_nil, runOn_push _ _ _ _ _ _ (by decide)] at h; exact absurd (List.cons.inj h).1 (by decide)
      | b :: d, [] => rw [runOn_nil, runOn_push _ _ _ _ _ _ (by decide)] at h; exact absurd (List.cons.inj h).1 (by decide)
      | b :: d, b' :: d' =>
        rw [runOn_push _ _ _ _ _ _ (by decide), runOn_push _ _ _ _ _ _ (by decide)] at h
        replace h := (List.cons.inj (List.cons.inj h).2).2
        match d, d' with
        | [], [] =>
          rw [runOn_nil, runOn_nil, finish2 he, finish2 he] at h
          replace h := (List.cons.inj (List.cons.inj (List.cons.inj h).2).2).2
          obtain ⟨h1, h⟩ := List.cons.inj h
          obtain ⟨h2, h⟩ := List.cons.inj h
          obtain ⟨h3, _⟩ := List.cons.inj h
          obtain ⟨e1, e2⟩ := bytes2 (Obs.addr.inj h1) (Obs.addr.inj h2) (Obs.addr.inj h3)
          rw [e1, e2]
        | [], c :: d =>
          obtain ⟨o, e'⟩ := runOn_block he nl eqs out' (push (push v' a') b') bl c d
          rw [runOn_nil, e'] at h; exact absurd (List.cons.inj h).1 (by decide)
        | c :: d, [] =>
          obtain ⟨o, e'⟩ := runOn_block he nl eqs out (push (push v a) b) bl c d
          rw [runOn_nil, e'] at h; exact absurd (List.cons.inj h).1 (by decide)
        | c :: d, c' :: d' =>
          obtain ⟨o, e1⟩ := runOn_block he nl eqs out (push (push v a) b) bl c d
          obtain ⟨o', e2⟩ := runOn_block he nl eqs out' (push (push v' a') b') bl c' d'
          rw [e1, e2] at h
          replace h := (List.cons.inj (List.cons.inj h).2).2
          obtain ⟨h1, h⟩ := List.cons.inj h
          obtain ⟨h2, h⟩ := List.cons.inj h
          obtain ⟨h3, h⟩ := List.cons.inj h
          obtain ⟨h4, h⟩ := List.cons.inj h
          obtain ⟨_, h⟩ := List.cons.inj h
          obtain ⟨f1, f2, f3⟩ := bytes3 (Obs.addr.inj h1) (Obs.addr.inj h2) (Obs.addr.inj h3) (Obs.addr.inj h4)
          rw [f1, f2, f3, ih d d' _ _ _ _ _ (by simp only [List.length_cons] at hk; omega) (List.append_cancel_left h)]

end

/-- C129, full claim: the events of encoding and decoding base64 depend on lengths only. -/
def C129_claim : Prop := (∀ (data data' : List Byte) (nl eqs : Bool) (cs : Base64CharSet), data.length = data'.length → (base64L data nl eqs cs).trace = (base64L data' nl eqs cs).trace) ∧
  ∀ s s' : List Byte, s.length = s'.length → (base64dL s).trace = (base64dL s').trace

/-- C129, what is true of encoding: two runs of `base64` have the same events only if they encode the same data; all accesses stay inside the tables and the text is the one of
the run without events. -/
theorem C129_encode_partial (data data' : List Byte) (nl eqs : Bool) (cs : Base64CharSet) :
    (base64L data nl eqs cs).res = .ok (base64 data nl eqs cs) ∧ ((base64L data nl eqs cs).trace = (base64L data' nl eqs cs).trace → data = data') := by
  refine ⟨base64_res data nl eqs cs, fun h => ?_⟩
  have he := lookup_length cs
  rw [base64L, base64L, trace_bind (b64Loop_res he nl data _), trace_bind (b64Loop_res he nl data' _)] at h
  exact runOn_inj he nl eqs _ data data' _ _ _ _ _ (Nat.lt_succ_self _) h

/-- C129, what is true of decoding: two runs of `base64d` have the same events only if they decode the same text: the indices into the table are the characters. In particular
they show the private key when a PEM file with a private key is read. -/
theorem C129_decode_partial (s s' : List Byte) : (base64dL s).res = .ok (base64d s) ∧ ((base64dL s).trace = (base64dL s').trace → s = s') := by
  refine ⟨base64d_res s, fun h => ?_⟩
  rw [base64dL, base64dL, trace_bind (b64dLoop_res s _), trace_bind (b64dLoop_res s' _)] at h
  exact b64d_trace s s' _ _ _ h

theorem C129_false : ¬ C129_claim := fun h => absurd ((C129_decode_partial _ _).2 (h.2 (ascii "QUJD") (ascii "QUJE") (by decide +kernel))) (by decide +kernel)

/-- The two texts have the same length and decode to "ABC" and "ABD". -/
example : (ascii "QUJD").length = (ascii "QUJE").length ∧ base64d (ascii "QUJD") = ascii "ABC" ∧ base64d (ascii "QUJE") = ascii "ABD" ∧
    (base64dL (ascii "QUJD")).trace ≠ (base64dL (ascii "QUJE")).trace := by decide +kernel

end Verif.Props
