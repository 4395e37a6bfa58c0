import Verif.Proof.Leak
import Verif.Proof.Bignum

/-! Two runs with the same events. -/

namespace Verif.Proof

open Verif.Model

/-- What is left of an event for an observer who does not see which value a condition chooses. -/
def blank : Obs → Obs
  | .pick _ => .pick false
  | o => o

/-- The runs `x` and `y` look the same through `view`, both fail with the same fault or both give results that are related by `R`. -/
def Same {α β : Type} (view : Obs → Obs) (R : α → β → Prop) (x : Leak α) (y : Leak β) : Prop :=
  x.trace.map view = y.trace.map view ∧ match x.res, y.res with
    | .ok a, .ok b => R a b
    | .error e, .error e' => e = e'
    | _, _ => False

variable {α β γ δ : Type} {view : Obs → Obs}

theorem Same.trace {R : α → β → Prop} {x : Leak α} {y : Leak β} (h : Same view R x y) : x.trace.map view = y.trace.map view := h.1

theorem Same.pure {R : α → β → Prop} {a : α} {b : β} (h : R a b) : Same view R (pure a) (pure b) := ⟨rfl, h⟩

theorem Same.bind {R : α → β → Prop} {S : γ → δ → Prop} {x : Leak α} {y : Leak β} {f : α → Leak γ} {g : β → Leak δ} (h : Same view R x y)
    (hf : ∀ a b, R a b → Same view S (f a) (g b)) : Same view S (x >>= f) (y >>= g) := by
  obtain ⟨xr, xt⟩ := x
  obtain ⟨yr, yt⟩ := y
  obtain ⟨ht, hr⟩ := h
  cases xr with
  | error e =>
    cases yr with
    | error e' => exact ⟨ht, hr⟩
    | ok b => exact hr.elim
  | ok a =>
    cases yr with
    | error e' => exact hr.elim
    | ok b =>
      obtain ⟨h1, h2⟩ := hf a b hr
      refine ⟨?_, h2⟩
      show (xt ++ (f a).2).map view = (yt ++ (g b).2).map view
      rw [List.map_append, List.map_append]
      exact congrArg₂ _ ht h1

theorem Same.emit {o o' : Obs} (h : view o = view o') : Same view (fun _ _ => True) (emit o) (emit o') := ⟨by show [view o] = [view o']; rw [h], trivial⟩

theorem Same.pick {b b' : Bool} : Same blank (fun _ _ => True) (Model.emit (.pick b)) (Model.emit (.pick b')) := Same.emit rfl

theorem Same.mono {R S : α → β → Prop} {x : Leak α} {y : Leak β} (h : Same view R x y) (hs : ∀ a b, R a b → S a b) : Same view S x y := by
  obtain ⟨xr, xt⟩ := x
  obtain ⟨yr, yt⟩ := y
  obtain ⟨ht, hr⟩ := h
  refine ⟨ht, ?_⟩
  cases xr <;> cases yr
  · exact hr
  · exact hr
  · exact hr
  · exact hs _ _ hr

/-- same length -/
abbrev SL {α β : Type} (a : List α) (b : List β) : Prop := a.length = b.length

/-- same length of the second components -/
abbrev SL2 {α β γ δ : Type} (a : γ × List α) (b : δ × List β) : Prop := a.2.length = b.2.length

theorem Same.rd {a : List α} {b : List β} (h : SL a b) (i : Nat) : Same view (fun _ _ => True) (rdL a i) (rdL b i) := by
  refine ⟨rfl, ?_⟩
  show match Verif.rd a i, Verif.rd b i with
    | .ok _, .ok _ => True
    | .error e, .error e' => e = e'
    | _, _ => False
  by_cases hi : i < a.length
  · rw [rd_ok hi, rd_ok (h ▸ hi)]; trivial
  · rw [rd_ub (Nat.not_lt.mp hi), rd_ub (h ▸ Nat.not_lt.mp hi)]

/-- A write keeps the lengths. -/
theorem Same.wr' {a : List α} {b : List β} (h : SL a b) (i : Nat) (x : α) (y : β) :
    Same view (fun a' b' => a'.length = a.length ∧ b'.length = b.length) (wrL a i x) (wrL b i y) := by
  refine ⟨rfl, ?_⟩
  rw [res_wr, res_wr]
  by_cases hi : i < a.length
  · rw [wr_ok x hi, wr_ok y (h ▸ hi)]
    exact ⟨List.length_set, List.length_set⟩
  · rw [wr_ub x (Nat.not_lt.mp hi), wr_ub y (h ▸ Nat.not_lt.mp hi)]

theorem Same.wr {a : List α} {b : List β} (h : SL a b) (i : Nat) (x : α) (y : β) : Same view SL (wrL a i x) (wrL b i y) :=
  (Same.wr' h i x y).mono fun _ _ h' => h'.1.trans (h.trans h'.2.symm)

theorem Same.passes {R : α → β → Prop} {f : α → Nat → Leak α} {g : β → Nat → Leak β} {s : α} {t : β} (h0 : R s t)
    (hb : ∀ i s t, R s t → Same view R (f s i) (g t i)) : ∀ n, Same view R (passesL n s f) (passesL n t g)
  | 0 => Same.pure h0
  | n + 1 => Same.bind (Same.passes h0 hb n) fun a b hab => Same.bind (Same.emit rfl) fun _ _ _ => hb n a b hab

theorem Same.loop {R : α → β → Prop} {f : α → Nat → Leak α} {g : β → Nat → Leak β} {s : α} {t : β} (n : Nat) (h0 : R s t)
    (hb : ∀ i s t, R s t → Same view R (f s i) (g t i)) : Same view R (loopL n s f) (loopL n t g) :=
  Same.bind (Same.passes h0 hb n) fun _ _ hab => Same.bind (Same.emit rfl) fun _ _ _ => Same.pure hab

/-! ### include/caligo/bignum.h -/

theorem same_bit {a b : List U32} (h : SL a b) (n : Nat) : Same view (fun _ _ => True) (bnBitL a n) (bnBitL b n) :=
  Same.bind (Same.rd h _) fun _ _ _ => Same.pure trivial

theorem same_setBit {a b : List U32} (h : SL a b) (n : Nat) : Same view SL (bnSetBitL a n) (bnSetBitL b n) :=
  Same.bind (Same.rd h _) fun _ _ _ => Same.wr h _ _ _

theorem same_clearBit {a b : List U32} (h : SL a b) (n : Nat) : Same view SL (bnClearBitL a n) (bnClearBitL b n) :=
  Same.bind (Same.rd h _) fun _ _ _ => Same.wr h _ _ _

theorem same_ofU32 (bits : Nat) (x y : U32) : Same view SL (bnOfU32L bits x) (bnOfU32L bits y) :=
  Same.bind (Same.emit rfl) fun _ _ _ => Same.pure (by rw [SL, bnOfU32, bnOfU32, List.length_set, List.length_set])

theorem same_ofInit (bits : Nat) {a b : List U32} (h : SL a b) : Same view SL (bnOfInitL bits a) (bnOfInitL bits b) := by
  rw [bnOfInitL, bnOfInitL, ← h]
  exact Same.loop _ rfl fun i s t hs => Same.bind (Same.rd h _) fun _ _ _ => Same.wr hs _ _ _

theorem same_convertL {a b : List U32} (k : Nat) : ∀ n, Same view SL (convertL a k n) (convertL b k n)
  | 0 => Same.pure rfl
  | n + 1 => by
    rw [convertL, convertL]
    refine Same.bind (same_convertL k n) fun x y hxy => Same.bind (Same.emit rfl) fun _ _ _ => ?_
    split
    · exact Same.bind (Same.emit rfl) fun _ _ _ => Same.bind (Same.emit rfl) fun _ _ _ => Same.pure (by rw [SL, List.length_append, List.length_append, hxy, List.length_singleton, List.length_singleton])
    · exact Same.bind (Same.emit rfl) fun _ _ _ => Same.pure (by rw [SL, List.length_append, List.length_append, hxy])

theorem same_convert (bits k : Nat) (a b : List U32) : Same view SL (bnConvertL bits k a) (bnConvertL bits k b) :=
  Same.bind (same_convertL _ _) fun _ _ h => Same.bind (Same.emit rfl) fun _ _ _ => Same.bind (Same.emit rfl) fun _ _ _ => Same.pure h

theorem same_addLoop (a : List U32) : ∀ (a' b b' : List U32) (i : Nat) (t t' : U64), SL a a' → SL b b' → Same view SL2 (addLoopL i t a b) (addLoopL i t' a' b') := by
  induction a with
  | nil =>
    intro a' b b' i t t' h _
    obtain rfl := List.length_eq_zero_iff.mp h.symm
    cases b <;> cases b' <;> exact Same.bind (Same.emit rfl) fun _ _ _ => Same.pure rfl
  | cons v vs ih =>
    intro a' b b' i t t' h1 h2
    match a', h1 with
    | v' :: vs', h1 =>
      match b, b', h2 with
      | [], [], _ => exact Same.bind (Same.emit rfl) fun _ _ _ => Same.pure rfl
      | r :: rs, r' :: rs', h2 =>
        rw [addLoopL, addLoopL]
        exact Same.bind (Same.emit rfl) fun _ _ _ => Same.bind (Same.emit rfl) fun _ _ _ => Same.bind (Same.emit rfl) fun _ _ _ => Same.bind (Same.emit rfl) fun _ _ _ =>
          Same.bind (ih _ _ _ _ _ _ (Nat.succ.inj h1) (Nat.succ.inj h2)) fun _ _ h => Same.pure (congrArg (· + 1) h)

theorem same_add {a a' b b' : List U32} (h1 : SL a a') (h2 : SL b b') : Same view SL2 (bnAddL a b) (bnAddL a' b') :=
  Same.bind (same_addLoop a a' b b' 0 _ _ h1 h2) fun _ _ h => Same.pure h

theorem same_subLoop (a : List U32) : ∀ (a' b b' : List U32) (i : Nat) (t t' : U64), SL a a' → SL b b' → Same blank SL2 (subLoopL i t a b) (subLoopL i t' a' b') := by
  induction a with
  | nil =>
    intro a' b b' i t t' h _
    obtain rfl := List.length_eq_zero_iff.mp h.symm
    cases b <;> cases b' <;> exact Same.bind (Same.emit rfl) fun _ _ _ => Same.pure rfl
  | cons v vs ih =>
    intro a' b b' i t t' h1 h2
    match a', h1 with
    | v' :: vs', h1 =>
      match b, b', h2 with
      | [], [], _ => exact Same.bind (Same.emit rfl) fun _ _ _ => Same.pure rfl
      | r :: rs, r' :: rs', h2 =>
        rw [subLoopL, subLoopL]
        exact Same.bind (Same.emit rfl) fun _ _ _ => Same.bind (Same.emit rfl) fun _ _ _ => Same.bind (Same.emit rfl) fun _ _ _ => Same.bind Same.pick fun _ _ _ =>
          Same.bind (Same.emit rfl) fun _ _ _ => Same.bind (ih _ _ _ _ _ _ (Nat.succ.inj h1) (Nat.succ.inj h2)) fun _ _ h => Same.pure (congrArg (· + 1) h)

theorem same_sub {a a' b b' : List U32} (h1 : SL a a') (h2 : SL b b') : Same blank SL2 (bnSubL a b) (bnSubL a' b') :=
  Same.bind (same_subLoop a a' b b' 0 _ _ h1 h2) fun _ _ h => Same.pure h

theorem same_slice (k : Nat) {a b : List U32} (h : SL a b) (start : Nat) : Same view SL (bnSliceL k a start) (bnSliceL k b start) :=
  Same.loop _ rfl fun _ _ _ hs => Same.bind (Same.rd h _) fun _ _ _ => Same.wr hs _ _ _

/-- Both lists have length `n`. -/
abbrev Len (n : Nat) {α β : Type} (a : List α) (b : List β) : Prop := a.length = n ∧ b.length = n

theorem Len.sl {n : Nat} {a : List α} {b : List β} (h : Len n a b) : SL a b := h.1.trans h.2.symm

theorem same_slice' (k : Nat) {a b : List U32} (h : SL a b) (start : Nat) : Same view (Len (bnN k)) (bnSliceL k a start) (bnSliceL k b start) :=
  Same.loop _ ⟨List.length_replicate, List.length_replicate⟩ fun _ _ _ hs => Same.bind (Same.rd h _) fun _ _ _ =>
    (Same.wr' hs.sl _ _ _).mono fun _ _ h' => ⟨h'.1.trans hs.1, h'.2.trans hs.2⟩

theorem same_zip (f : U32 → U32 → U32) (a : List U32) : ∀ (a' b b' : List U32) (i : Nat), SL a a' → SL b b' → Same view SL (zipL i f a b) (zipL i f a' b') := by
  induction a with
  | nil =>
    intro a' b b' i h _
    obtain rfl := List.length_eq_zero_iff.mp h.symm
    cases b <;> cases b' <;> exact Same.bind (Same.emit rfl) fun _ _ _ => Same.pure rfl
  | cons v vs ih =>
    intro a' b b' i h1 h2
    match a', h1 with
    | v' :: vs', h1 =>
      match b, b', h2 with
      | [], [], _ => exact Same.bind (Same.emit rfl) fun _ _ _ => Same.pure rfl
      | r :: rs, r' :: rs', h2 =>
        rw [zipL, zipL]
        exact Same.bind (Same.emit rfl) fun _ _ _ => Same.bind (Same.emit rfl) fun _ _ _ => Same.bind (Same.emit rfl) fun _ _ _ => Same.bind (Same.emit rfl) fun _ _ _ =>
          Same.bind (ih _ _ _ _ (Nat.succ.inj h1) (Nat.succ.inj h2)) fun _ _ h => Same.pure (congrArg (· + 1) h)

theorem same_mulWordLoop (b b' : U32) (a : List U32) : ∀ (a' : List U32) (i : Nat) (t t' : U64), SL a a' → Same view SL (mulWordLoopL i t b a) (mulWordLoopL i t' b' a') := by
  induction a with
  | nil =>
    intro a' i t t' h
    obtain rfl := List.length_eq_zero_iff.mp h.symm
    exact Same.bind (Same.emit rfl) fun _ _ _ => Same.bind (Same.emit rfl) fun _ _ _ => Same.pure rfl
  | cons v vs ih =>
    intro a' i t t' h1
    match a', h1 with
    | v' :: vs', h1 =>
      rw [mulWordLoopL, mulWordLoopL]
      exact Same.bind (Same.emit rfl) fun _ _ _ => Same.bind (Same.emit rfl) fun _ _ _ => Same.bind (Same.emit rfl) fun _ _ _ =>
        Same.bind (ih _ _ _ _ (Nat.succ.inj h1)) fun _ _ h => Same.pure (congrArg (· + 1) h)

theorem same_mulWord {a a' : List U32} (b b' : U32) (h : SL a a') : Same view SL (bnMulWordL a b) (bnMulWordL a' b') := same_mulWordLoop b b' a a' 0 _ _ h

theorem same_mul (bits : Nat) {a a' b b' : List U32} (h1 : SL a a') (h2 : SL b b') : Same view SL (bnMulL bits a b) (bnMulL bits a' b') := by
  rw [bnMulL, bnMulL]
  refine Same.loop _ rfl fun i x x' hx => Same.bind (R := fun p q => SL p.1 q.1) (Same.loop _ hx fun j p q hp => ?_) fun p q hp => Same.wr hp _ _ _
  exact Same.bind (Same.rd h1 _) fun _ _ _ => Same.bind (Same.rd h2 _) fun _ _ _ => Same.bind (Same.rd hp _) fun _ _ _ =>
    Same.bind (Same.wr hp _ _ _) fun _ _ h => Same.pure h

theorem same_ones (s s' : Bool) (a : List U32) : ∀ (a' : List U32) (i : Nat), SL a a' → Same view SL (onesL i s a) (onesL i s' a') := by
  induction a with
  | nil =>
    intro a' i h
    obtain rfl := List.length_eq_zero_iff.mp h.symm
    exact Same.bind (Same.emit rfl) fun _ _ _ => Same.pure rfl
  | cons v vs ih =>
    intro a' i h1
    match a', h1 with
    | v' :: vs', h1 =>
      rw [onesL, onesL]
      exact Same.bind (Same.emit rfl) fun _ _ _ => Same.bind (Same.emit rfl) fun _ _ _ => Same.bind (ih _ _ (Nat.succ.inj h1)) fun _ _ h => Same.pure (congrArg (· + 1) h)

/-- both components have the same length -/
abbrev SLB {α : Type} (a b : List α × List α) : Prop := SL a.1 b.1 ∧ SL a.2 b.2

theorem same_swap (s s' : Bool) {a a' b b' : List U32} (h1 : SL a a') (h2 : SL b b') : Same view SLB (bnCtimeSwapL s a b) (bnCtimeSwapL s' a' b') :=
  Same.bind (same_ones s s' a a' 0 h1) fun _ _ o => Same.bind (same_zip _ _ _ _ _ 0 h1 h2) fun _ _ x => Same.bind (same_zip _ _ _ _ _ 0 o x) fun _ _ o =>
    Same.bind (same_zip _ _ _ _ _ 0 h1 o) fun _ _ a => Same.bind (same_zip _ _ _ _ _ 0 h2 o) fun _ _ b => Same.pure ⟨a, b⟩

/-! ### include/caligo/x25519.h -/

theorem same_ecAdd {a a' b b' : List U32} (h1 : SL a a') (h2 : SL b b') : Same view SL (ecAddL a b) (ecAddL a' b') :=
  Same.bind (same_add h1 h2) fun _ _ p => Same.bind (same_ofU32 _ _ _) fun _ _ c => Same.bind (same_add p c) fun _ _ q => Same.bind (Same.rd q _) fun _ _ _ => Same.wr q _ _ _

theorem same_ecMulWord {a a' : List U32} (b b' : U32) (h : SL a a') : Same view SL (ecMulWordL a b) (ecMulWordL a' b') :=
  Same.bind (same_mulWord _ _ h) fun _ _ x => Same.bind (Same.rd x _) fun _ _ _ => Same.bind (same_slice _ x _) fun _ _ lo => Same.bind (same_ofInit _ rfl) fun _ _ o =>
    same_ecAdd lo o

theorem same_ecMul {a a' b b' : List U32} (h1 : SL a a') (h2 : SL b b') : Same view SL (ecMulL a b) (ecMulL a' b') :=
  Same.bind (same_mul _ h1 h2) fun _ _ x => Same.bind (same_slice _ x _) fun _ _ u => Same.bind (same_slice _ x _) fun _ _ l => Same.bind (same_mulWord _ _ u) fun _ _ u38 =>
    Same.bind (same_slice _ u38 _) fun _ _ u0 => Same.bind (Same.rd u38 _) fun _ _ _ => Same.bind (same_ecAdd u0 l) fun _ _ s => Same.bind (same_ofU32 _ _ _) fun _ _ c => same_ecAdd s c

theorem mz_length (b b' : Bool) : SL (if b then ecModulus else ecZero) (if b' then ecModulus else ecZero) := by cases b <;> cases b' <;> rfl

theorem same_ecSub {a a' b b' : List U32} (h1 : SL a a') (h2 : SL b b') : Same blank SL (ecSubL a b) (ecSubL a' b') :=
  Same.bind (same_sub h1 h2) fun _ _ p => Same.bind Same.pick fun _ _ _ => Same.bind (same_add p (mz_length _ _)) fun _ _ q => Same.bind Same.pick fun _ _ _ =>
    Same.bind (same_add q (mz_length _ _)) fun _ _ r => Same.bind Same.pick fun _ _ _ => Same.bind (same_add r (mz_length _ _)) fun _ _ s => Same.pure s

theorem same_applyModulus {a a' : List U32} (h : SL a a') : Same blank SL (ecApplyModulusL a) (ecApplyModulusL a') :=
  Same.bind (same_sub h rfl) fun _ _ p => Same.bind Same.pick fun _ _ _ => Same.bind (same_add p (mz_length _ _)) fun _ _ q =>
    Same.bind (same_sub q rfl) fun _ _ r => Same.bind Same.pick fun _ _ _ => Same.bind (same_add r (mz_length _ _)) fun _ _ s => Same.pure s

theorem same_normalize {a a' : List U32} (h : SL a a') : Same view SL (ecNormalizeL a) (ecNormalizeL a') :=
  Same.bind (same_clearBit h _) fun _ _ h => Same.bind (same_clearBit h _) fun _ _ h => Same.bind (same_clearBit h _) fun _ _ h => Same.bind (same_setBit h _) fun _ _ h => same_clearBit h _

theorem same_squareN {a a' : List U32} (h : SL a a') : ∀ n, Same view SL (ecSquareNL n a) (ecSquareNL n a')
  | 0 => Same.pure h
  | n + 1 => Same.bind (same_squareN h n) fun _ _ h => same_ecMul h h

theorem same_inverse {a a' : List U32} (h : SL a a') : Same view SL (ecInverseL a) (ecInverseL a') :=
  Same.bind (same_ecMul h h) fun _ _ z2 => Same.bind (same_ecMul z2 z2) fun _ _ z4 => Same.bind (same_ecMul z4 z4) fun _ _ z8 => Same.bind (same_ecMul z8 h) fun _ _ z9 =>
  Same.bind (same_ecMul z9 z2) fun _ _ z11 => Same.bind (same_ecMul z11 z11) fun _ _ z22 => Same.bind (same_ecMul z22 z9) fun _ _ z31 =>
  Same.bind (same_squareN z31 5) fun _ _ z105 => Same.bind (same_ecMul z105 z31) fun _ _ z100 => Same.bind (same_squareN z100 5) fun _ _ z155 =>
  Same.bind (same_ecMul z155 z31) fun _ _ z150 => Same.bind (same_squareN z150 15) fun _ _ t => Same.bind (same_ecMul t z150) fun _ _ z30 =>
  Same.bind (same_squareN z30 30) fun _ _ t => Same.bind (same_ecMul t z30) fun _ _ z60 => Same.bind (same_squareN z60 60) fun _ _ t => Same.bind (same_ecMul t z60) fun _ _ z120 =>
  Same.bind (same_squareN z120 120) fun _ _ t => Same.bind (same_ecMul t z120) fun _ _ z240 => Same.bind (same_squareN z240 15) fun _ _ t => Same.bind (same_ecMul t z155) fun _ _ t =>
  same_ecMul t z11

/-- The local variables have the same lengths. -/
structure SameLadder (s s' : LadderState) : Prop where
  x2 : SL s.x2 s'.x2
  z2 : SL s.z2 s'.z2
  x3 : SL s.x3 s'.x3
  z3 : SL s.z3 s'.z3

theorem same_ladder {k k' u u' : List U32} (hk : SL k k') (hu : SL u u') (t : Nat) {s s' : LadderState} (hs : SameLadder s s') :
    Same blank SameLadder (ladderBodyL k u s t) (ladderBodyL k' u' s' t) :=
  Same.bind (same_bit hk t) fun _ _ _ => Same.bind (same_swap _ _ hs.x2 hs.x3) fun _ _ p => Same.bind (same_swap _ _ hs.z2 hs.z3) fun _ _ q =>
  Same.bind (same_ecAdd p.1 q.1) fun _ _ A => Same.bind (same_ecMul A A) fun _ _ AA => Same.bind (same_ecSub p.1 q.1) fun _ _ B => Same.bind (same_ecMul B B) fun _ _ BB =>
  Same.bind (same_ecSub AA BB) fun _ _ E => Same.bind (same_ecAdd p.2 q.2) fun _ _ C => Same.bind (same_ecSub p.2 q.2) fun _ _ D => Same.bind (same_ecMul D A) fun _ _ DA =>
  Same.bind (same_ecMul C B) fun _ _ CB => Same.bind (same_ecAdd DA CB) fun _ _ x3 => Same.bind (same_ecMul x3 x3) fun _ _ x3 => Same.bind (same_ecSub DA CB) fun _ _ d =>
  Same.bind (same_ecMul d d) fun _ _ z3 => Same.bind (same_ecMul hu z3) fun _ _ z3 => Same.bind (same_ecMul AA BB) fun _ _ x2 => Same.bind (same_ecMulWord _ _ E) fun _ _ z2 =>
  Same.bind (same_ecAdd AA z2) fun _ _ z2 => Same.bind (same_ecMul E z2) fun _ _ z2 => Same.pure ⟨x2, z2, x3, z3⟩

theorem same_x25519 {k k' u u' : List U32} (hk : SL k k') (hu : SL u u') : Same blank SL (x25519L k u) (x25519L k' u') :=
  Same.bind (same_normalize hk) fun _ _ k => Same.bind (same_ofInit _ rfl) fun _ _ one => Same.bind (same_ofInit _ rfl) fun _ _ zero =>
  Same.bind (R := SameLadder) (Same.loop _ ⟨one, zero, hu, one⟩ fun _ _ _ hs => same_ladder k hu _ hs) fun _ _ s => Same.bind (same_swap _ _ s.x2 s.x3) fun _ _ p =>
  Same.bind (same_swap _ _ s.z2 s.z3) fun _ _ q => Same.bind (same_inverse q.1) fun _ _ i => Same.bind (same_ecMul p.1 i) fun _ _ rv => same_applyModulus rv

/-! ### include/caligo/mont.h, include/caligo/rsa.h -/

/-- What is known about the results may be added. -/
theorem Same.and {R : α → β → Prop} {P : α → Prop} {Q : β → Prop} {x : Leak α} {y : Leak β} (h : Same view R x y) (hx : ∀ a, x.res = .ok a → P a)
    (hy : ∀ b, y.res = .ok b → Q b) : Same view (fun a b => R a b ∧ P a ∧ Q b) x y := by
  obtain ⟨xr, xt⟩ := x
  obtain ⟨yr, yt⟩ := y
  obtain ⟨ht, hr⟩ := h
  refine ⟨ht, ?_⟩
  cases xr <;> cases yr
  · exact hr
  · exact hr
  · exact hr
  · exact ⟨hr, hx _ rfl, hy _ rfl⟩

theorem same_sub' {n : Nat} {a a' b b' : List U32} (h1 : Len n a a') (h2 : Len n b b') : Same blank (fun p q => Len n p.2 q.2) (bnSubL a b) (bnSubL a' b') := by
  refine ((same_sub h1.sl h2.sl).and (P := fun p => p.2.length = n) (Q := fun p => p.2.length = n) ?_ ?_).mono fun _ _ h => h.2
  · intro p hp
    rw [res_sub] at hp
    rw [← Except.ok.inj hp, bnSub_length _ _ (h1.1.trans h2.1.symm), h1.1]
  · intro p hp
    rw [res_sub] at hp
    rw [← Except.ok.inj hp, bnSub_length _ _ (h1.2.trans h2.2.symm), h1.2]

theorem same_redc (K : Nat) {N N' I I' v v' : List U32} (hN : Len (bnN K) N N') (hI : SL I I') (hv : SL v v') : Same blank (Len (bnN K)) (redcL K N I v) (redcL K N' I' v') :=
  Same.bind (same_slice _ hv _) fun _ _ v0 => Same.bind (same_mul _ v0 hI) fun _ _ vn => Same.bind (same_slice _ vn _) fun _ _ m => Same.bind (same_mul _ m hN.sl) fun _ _ mn =>
  Same.bind (same_add hv mn) fun x y vmn => Same.bind (same_slice' _ vmn _) fun _ _ t => Same.bind (same_sub' t hN) fun _ _ t2 => Same.bind Same.pick fun _ _ _ => Same.pure (by
    refine ⟨?_, ?_⟩
    · cases x.1
      · exact t.1
      · exact t2.1
    · cases y.1
      · exact t.2
      · exact t2.2)

/-- The states have members of the width asked for. -/
structure SameMont (K : Nat) (s s' : MontState) : Prop where
  N : Len (bnN K) s.N s'.N
  Ninv : SL s.Ninv s'.Ninv
  R2MN : SL s.R2MN s'.R2MN

theorem same_montOf (K : Nat) {s s' : MontState} (hs : SameMont K s s') {x x' : List U32} (hx : SL x x') : Same blank (Len (bnN K)) (montOfL K s x) (montOfL K s' x') :=
  Same.bind (same_mul _ hx hs.R2MN) fun _ _ p => same_redc _ hs.N hs.Ninv p

theorem same_montMul (K : Nat) {s s' : MontState} (hs : SameMont K s s') {a a' b b' : List U32} (ha : SL a a') (hb : SL b b') :
    Same blank (Len (bnN K)) (montMulL K s a b) (montMulL K s' a' b') :=
  Same.bind (same_mul _ hb ha) fun _ _ p => same_redc _ hs.N hs.Ninv p

theorem same_montSquare (K : Nat) {s s' : MontState} (hs : SameMont K s s') {a a' : List U32} (ha : SL a a') :
    Same blank (Len (bnN K)) (montSquareL K s a) (montSquareL K s' a') :=
  Same.bind (same_mul _ ha ha) fun _ _ p => same_redc _ hs.N hs.Ninv p

theorem same_expPass (K : Nat) {s s' : MontState} (hs : SameMont K s s') {one one' e e' : List U32} (ho : Len (bnN K) one one') (he : SL e e') (n : Nat)
    {p p' : List U32 × List U32} (hp : Len (bnN K) p.1 p'.1 ∧ Len (bnN K) p.2 p'.2) :
    Same blank (fun p p' => Len (bnN K) p.1 p'.1 ∧ Len (bnN K) p.2 p'.2) (expPassL K s one e p n) (expPassL K s' one' e' p' n) :=
  Same.bind (same_bit he n) fun x y _ => Same.bind Same.pick fun _ _ _ => Same.bind (same_montMul K hs hp.1.sl (by
    cases x != 0#32 <;> cases y != 0#32
    · exact ho.sl
    · exact ho.1.trans hp.2.2.symm
    · exact hp.2.1.trans ho.2.symm
    · exact hp.2.sl)) fun _ _ v => Same.bind (same_montSquare K hs hp.2.sl) fun _ _ b => Same.pure ⟨v, b⟩

theorem same_montExp (K : Nat) {s s' : MontState} (hs : SameMont K s s') {a a' e e' : List U32} (ha : Len (bnN K) a a') (he : SL e e') :
    Same blank (Len (bnN K)) (montExpL K s a e) (montExpL K s' a' e') :=
  Same.bind (same_ofU32 _ _ _) fun _ _ c => Same.bind (same_montOf K hs c) fun _ _ one =>
  Same.bind (R := fun p p' => Len (bnN K) p.1 p'.1 ∧ Len (bnN K) p.2 p'.2) (Same.loop _ ⟨one, ha⟩ fun n _ _ hp => same_expPass K hs one he n hp) fun _ _ h => Same.pure h.1

theorem same_montTo (K : Nat) {s s' : MontState} (hs : SameMont K s s') (a a' : List U32) : Same blank (Len (bnN K)) (montToL K s a) (montToL K s' a') :=
  Same.bind (same_convert _ _ _ _) fun _ _ c => same_redc _ hs.N hs.Ninv c

theorem same_rsadp (K : Nat) {k k' : RsaPriv} (hs : SameMont K k.s k'.s) (hd : SL k.d k'.d) {m m' : List U32} (hm : SL m m') :
    Same blank (Len (bnN K)) (rsadpL K k m) (rsadpL K k' m') :=
  Same.bind (same_montOf K hs hm) fun _ _ v => Same.bind (same_montExp K hs v hd) fun _ _ _ => same_montTo K hs _ _

end Verif.Proof
