import Verif.Proof.LeakSame
import Verif.Proof.LeakGcmSame
import Verif.Proof.LeakPrime
import Verif.Props.SideChannel

/-! What an observer learns from a run whose events depend on secrets. -/

namespace Verif.Proof

open Verif.Model Verif.Spec Verif.Props

variable {α β γ δ : Type} {v : Obs → Option Obs}

/-- An observer who sees the events that `v` keeps, and who sees two runs that begin with the same events, knows that `x` and `y` have the same events and that
`R` holds of the results. -/
def Sync (v : Obs → Option Obs) (R : α → β → Prop) (x : Leak α) (y : Leak β) : Prop :=
  ∀ s t, x.trace.filterMap v ++ s = y.trace.filterMap v ++ t → s = t ∧ match x.res, y.res with
    | .ok a, .ok b => R a b
    | .error e, .error e' => e = e'
    | _, _ => False

/-- The observer sees branches, and for other events it does not depend on a choice whether they are seen. -/
structure View (v : Obs → Option Obs) : Prop where
  keep : ∀ o o', blank o = blank o' → (v o).isSome = (v o').isSome
  branch : ∀ b, v (.branch b) = some (.branch b)

theorem Sync.pure {R : α → β → Prop} {a : α} {b : β} (h : R a b) : Sync v R (pure a) (pure b) := fun _ _ e => ⟨e, h⟩

theorem Sync.bind {R : α → β → Prop} {S : γ → δ → Prop} {x : Leak α} {y : Leak β} {f : α → Leak γ} {g : β → Leak δ} (h : Sync v R x y)
    (hf : ∀ a b, R a b → Sync v S (f a) (g b)) : Sync v S (x >>= f) (y >>= g) := by
  obtain ⟨xr, xt⟩ := x
  obtain ⟨yr, yt⟩ := y
  cases xr with
  | error e =>
    cases yr with
    | error e' => exact h
    | ok b =>
      intro s t e
      have e : xt.filterMap v ++ s = (yt ++ (g b).2).filterMap v ++ t := e
      rw [List.filterMap_append, List.append_assoc] at e
      exact (h _ _ e).2.elim
  | ok a =>
    cases yr with
    | error e' =>
      intro s t e
      have e : (xt ++ (f a).2).filterMap v ++ s = yt.filterMap v ++ t := e
      rw [List.filterMap_append, List.append_assoc] at e
      exact (h _ _ e).2.elim
    | ok b =>
      intro s t e
      have e : (xt ++ (f a).2).filterMap v ++ s = (yt ++ (g b).2).filterMap v ++ t := e
      rw [List.filterMap_append, List.append_assoc, List.filterMap_append, List.append_assoc] at e
      obtain ⟨e1, hr⟩ := h _ _ e
      exact hf a b hr s t e1

theorem Sync.mono {R S : α → β → Prop} {x : Leak α} {y : Leak β} (h : Sync v R x y) (hs : ∀ a b, R a b → S a b) : Sync v S x y := by
  intro s t e
  obtain ⟨h1, h2⟩ := h s t e
  refine ⟨h1, ?_⟩
  cases hx : x.res <;> cases hy : y.res <;> rw [hx, hy] at h2
  · exact h2
  · exact h2
  · exact h2
  · exact hs _ _ h2

theorem Sync.and {R : α → β → Prop} {P : α → Prop} {Q : β → Prop} {x : Leak α} {y : Leak β} (h : Sync v R x y) (hx : ∀ a, x.res = .ok a → P a)
    (hy : ∀ b, y.res = .ok b → Q b) : Sync v (fun a b => R a b ∧ P a ∧ Q b) x y := by
  intro s t e
  obtain ⟨h1, h2⟩ := h s t e
  refine ⟨h1, ?_⟩
  cases hx' : x.res <;> cases hy' : y.res <;> rw [hx', hy'] at h2
  · exact h2
  · exact h2
  · exact h2
  · exact ⟨h2, hx _ hx', hy _ hy'⟩

theorem filterMap_length (hv : View v) : ∀ s t : List Obs, s.map blank = t.map blank → (s.filterMap v).length = (t.filterMap v).length
  | [], [], _ => rfl
  | [], _ :: _, h => nomatch h
  | _ :: _, [], h => nomatch h
  | a :: s, b :: t, h => by
    obtain ⟨h1, h2⟩ := List.cons.inj h
    have ih := filterMap_length hv s t h2
    have k := hv.keep a b h1
    rw [List.filterMap_cons, List.filterMap_cons]
    cases ha : v a <;> cases hb : v b <;> rw [ha, hb] at k
    · exact ih
    · cases k
    · cases k
    · exact congrArg (· + 1) ih

/-- Runs with the same events reveal the choices. -/
theorem Same.sync (hv : View v) {R : α → β → Prop} {x : Leak α} {y : Leak β} (h : Same blank R x y) : Sync v R x y := by
  intro s t e
  have hl := filterMap_length hv _ _ h.1
  exact ⟨(List.append_inj e hl).2, h.2⟩

theorem Sync.trace {R : α → β → Prop} {x : Leak α} {y : Leak β} (h : Sync v R x y) (e : x.trace.filterMap v = y.trace.filterMap v) {a : α} {b : β} (hx : x.res = .ok a)
    (hy : y.res = .ok b) : R a b := by
  have h2 := (h [] [] (by rw [e])).2
  rw [hx, hy] at h2
  exact h2

theorem Sync.branch (hv : View v) (b b' : Bool) : Sync v (fun _ _ => b = b') (emit (.branch b)) (emit (.branch b')) := by
  intro s t e
  have e : [Obs.branch b].filterMap v ++ s = [Obs.branch b'].filterMap v ++ t := e
  rw [List.filterMap_cons, List.filterMap_cons, hv.branch, hv.branch] at e
  obtain ⟨h1, h2⟩ := List.cons.inj e
  exact ⟨h2, Obs.branch.inj h1⟩

theorem Sync.ite {R : α → β → Prop} {c c' : Prop} [Decidable c] [Decidable c'] (h : c ↔ c') {x x' : Leak α} {y y' : Leak β} (ht : c → Sync v R x y)
    (he : ¬ c → Sync v R x' y') : Sync v R (if c then x else x') (if c' then y else y') := by
  by_cases hc : c
  · rw [if_pos hc, if_pos (h.mp hc)]; exact ht hc
  · rw [if_neg hc, if_neg fun h' => hc (h.mpr h')]; exact he hc

/-- Everything is seen. -/
theorem view_some : View some := ⟨fun _ _ _ => rfl, fun _ => rfl⟩

/-- Branches and addresses are seen. -/
def hardOf : Obs → Option Obs
  | .pick _ => none
  | o => some o

theorem view_hard : View hardOf := by
  refine ⟨fun o o' h => ?_, fun _ => rfl⟩
  cases o <;> cases o' <;> first | rfl | nomatch h

theorem filterMap_hard (t : List Obs) : t.filterMap hardOf = hard t := by
  induction t with
  | nil => rfl
  | cons o t ih =>
    cases o
    · exact congrArg _ ih
    · exact congrArg _ ih
    · exact ih

/-! ### include/caligo/bignum.h -/

variable {view : Obs → Obs}

theorem same_eqLoop (a : List U32) : ∀ (a' b b' : List U32) (i : Nat) (t t' : U32), SL a a' → SL b b' → Same view (fun _ _ => True) (eqLoopL i t a b) (eqLoopL i t' a' b') := by
  induction a with
  | nil =>
    intro a' b b' i t t' h _
    obtain rfl := List.length_eq_zero_iff.mp h.symm
    cases b <;> cases b' <;> exact Same.bind (Same.emit rfl) fun _ _ _ => Same.pure trivial
  | cons w ws ih =>
    intro a' b b' i t t' h1 h2
    match a', h1 with
    | w' :: ws', h1 =>
      match b, b', h2 with
      | [], [], _ => exact Same.bind (Same.emit rfl) fun _ _ _ => Same.pure trivial
      | r :: rs, r' :: rs', h2 =>
        rw [eqLoopL, eqLoopL]
        exact Same.bind (Same.emit rfl) fun _ _ _ => Same.bind (Same.emit rfl) fun _ _ _ => Same.bind (Same.emit rfl) fun _ _ _ =>
          ih _ _ _ _ _ _ (Nat.succ.inj h1) (Nat.succ.inj h2)

theorem same_eq {a a' b b' : List U32} (h1 : SL a a') (h2 : SL b b') : Same view (fun p q => p = bnEq a b ∧ q = bnEq a' b') (bnEqL a b) (bnEqL a' b') := by
  have h : Same view (fun _ _ => True) (bnEqL a b) (bnEqL a' b') := Same.bind (same_eqLoop a a' b b' 0 _ _ h1 h2) fun _ _ _ => Same.pure trivial
  refine (h.and (P := fun p => p = bnEq a b) (Q := fun p => p = bnEq a' b') ?_ ?_).mono fun _ _ h => h.2
  · intro p hp; rw [res_eq] at hp; exact (Except.ok.inj hp).symm
  · intro p hp; rw [res_eq] at hp; exact (Except.ok.inj hp).symm

theorem same_lt {a a' b b' : List U32} (h1 : SL a a') (h2 : SL b b') : Same blank (fun p q => p = bnLt a b ∧ q = bnLt a' b') (bnLtL a b) (bnLtL a' b') := by
  have h : Same blank (fun _ _ => True) (bnLtL a b) (bnLtL a' b') := Same.bind (same_sub h1 h2) fun _ _ _ => Same.pure trivial
  refine (h.and (P := fun p => p = bnLt a b) (Q := fun p => p = bnLt a' b') ?_ ?_).mono fun _ _ h => h.2
  · intro p hp; rw [res_lt] at hp; exact (Except.ok.inj hp).symm
  · intro p hp; rw [res_lt] at hp; exact (Except.ok.inj hp).symm

theorem same_shr1Loop (a : List U32) : ∀ (a' : List U32) (t t' : U32), SL a a' → Same view SL (shr1LoopL t a) (shr1LoopL t' a') := by
  induction a with
  | nil =>
    intro a' t t' h
    obtain rfl := List.length_eq_zero_iff.mp h.symm
    exact Same.bind (Same.emit rfl) fun _ _ _ => Same.pure rfl
  | cons w ws ih =>
    intro a' t t' h1
    match a', h1 with
    | w' :: ws', h1 =>
      rw [shr1LoopL, shr1LoopL, Nat.succ.inj h1]
      exact Same.bind (Same.emit rfl) fun _ _ _ => Same.bind (Same.emit rfl) fun _ _ _ => Same.bind (Same.emit rfl) fun _ _ _ => Same.bind (Same.emit rfl) fun _ _ _ =>
        Same.bind (ih _ _ _ (Nat.succ.inj h1)) fun _ _ h => Same.pure (congrArg (· + 1) h)

theorem same_shr1 {a a' : List U32} (h : SL a a') : Same view SL (bnShr1L a) (bnShr1L a') :=
  Same.bind (same_shr1Loop _ _ _ _ (by rw [SL, List.length_reverse, List.length_reverse]; exact h)) fun _ _ h => Same.pure (by rw [SL, List.length_reverse, List.length_reverse]; exact h)

theorem same_shlWord {a a' : List U32} (h : SL a a') (words : Nat) : Same view SL (bnShlWordL a words) (bnShlWordL a' words) := by
  rw [bnShlWordL, bnShlWordL, ← h]
  refine Same.ite Iff.rfl (fun _ => ⟨rfl, rfl⟩) fun _ => ?_
  exact Same.bind (Same.loop _ h fun i s t hs => Same.bind (Same.rd hs _) fun _ _ _ => Same.wr hs _ _ _) fun _ _ hs => Same.loop _ hs fun i s t hs => Same.wr hs _ _ _

theorem same_neg (a : List U32) : ∀ (a' : List U32) (i : Nat), SL a a' → Same view SL (negL i a) (negL i a') := by
  induction a with
  | nil =>
    intro a' i h
    obtain rfl := List.length_eq_zero_iff.mp h.symm
    exact Same.bind (Same.emit rfl) fun _ _ _ => Same.pure rfl
  | cons w ws ih =>
    intro a' i h1
    match a', h1 with
    | w' :: ws', h1 =>
      rw [negL, negL]
      exact Same.bind (Same.emit rfl) fun _ _ _ => Same.bind (Same.emit rfl) fun _ _ _ => Same.bind (ih _ _ (Nat.succ.inj h1)) fun _ _ h => Same.pure (congrArg (· + 1) h)

theorem same_reduceLoop {m : Nat} : ∀ (n : Nat) {c c' s s' : List U32}, Len m c c' → Len m s s' → Same blank SL (reduceLoopL n c s) (reduceLoopL n c' s')
  | 0, c, c', s, s', h, _ => Same.bind (Same.emit rfl) fun _ _ _ => Same.pure h.sl
  | n + 1, c, c', s, s', h, hs => by
    rw [reduceLoopL, reduceLoopL]
    refine Same.bind (Same.emit rfl) fun _ _ _ => Same.bind (same_sub' h hs) fun x y hxy => Same.bind Same.pick fun _ _ _ => ?_
    have h1 : Same blank (Len m) (bnShr1L s) (bnShr1L s') := by
      refine ((same_shr1 hs.sl).and (P := fun p => p.length = m) (Q := fun p => p.length = m) ?_ ?_).mono fun _ _ h => h.2
      · intro p hp; rw [res_shr1] at hp; rw [← Except.ok.inj hp, bnShr1_length]; exact hs.1
      · intro p hp; rw [res_shr1] at hp; rw [← Except.ok.inj hp, bnShr1_length]; exact hs.2
    refine Same.bind h1 fun _ _ h2 => same_reduceLoop n ⟨?_, ?_⟩ h2
    · cases x.1
      · exact hxy.1
      · exact h.1
    · cases y.1
      · exact hxy.2
      · exact h.2

/-- the number of zeros at the start -/
def zeros (l : List U32) : Nat := (l.takeWhile (· == 0#32)).length

/-- The two loops end with numbers of the same length and the same shift. -/
def SameNorm (m : Nat) (o o' : Option (List U32 × Nat)) : Prop :=
  match o, o' with
  | some p, some p' => Len m p.1 p'.1 ∧ p.2 = p'.2
  | none, none => True
  | _, _ => False

theorem shl_length {m words : Nat} {a a' : List U32} (h : Len m a a') : Same blank (Len m) (bnShlWordL a words) (bnShlWordL a' words) := by
  have key : ∀ (b p : List U32), (bnShlWordL b words).res = .ok p → p.length = b.length := by
    intro b p hp
    rw [res_shlWord] at hp
    by_cases hw : words ≤ b.length
    · rw [bnShlWord_eq b words hw] at hp
      rw [← Except.ok.inj hp, List.length_append, List.length_replicate, List.length_take]; omega
    · rw [bnShlWord] at hp
      dsimp only at hp
      rw [if_pos (by omega)] at hp
      cases hp
  refine ((same_shlWord h.sl words).and (P := fun p => p.length = m) (Q := fun p => p.length = m) ?_ ?_).mono fun _ _ h => h.2
  · intro p hp; rw [key a p hp]; exact h.1
  · intro p hp; rw [key a' p hp]; exact h.2

/-- The number of passes of the `while` loop of `naive_reduce` is revealed. -/
theorem sync_normLoop (hv : View v) {m : Nat} : ∀ (fuel : Nat) (s s' : List U32) (shift : Nat), Len m s s' → Sync v (SameNorm m) (normLoopL fuel s shift) (normLoopL fuel s' shift)
  | 0, s, s', shift, h => by
    rw [normLoopL, normLoopL, h.1, h.2]
    refine Sync.bind (Same.sync hv (Same.rd h.sl _)) fun a b _ => Sync.bind (Sync.branch hv _ _) fun _ _ e => Sync.pure ?_
    have e : (a == 0#32) = (b == 0#32) := e
    by_cases ha : a = 0#32
    · have hb : b = 0#32 := by rw [ha] at e; exact eq_of_beq e.symm
      rw [if_pos ha, if_pos hb]; trivial
    · have hb : b ≠ 0#32 := by
        intro hb; rw [hb] at e; exact ha (eq_of_beq e)
      rw [if_neg ha, if_neg hb]; exact ⟨h, rfl⟩
  | fuel + 1, s, s', shift, h => by
    rw [normLoopL, normLoopL, h.1, h.2]
    refine Sync.bind (Same.sync hv (Same.rd h.sl _)) fun a b _ => Sync.bind (Sync.branch hv _ _) fun _ _ e => ?_
    have e : (a == 0#32) = (b == 0#32) := e
    refine Sync.ite ⟨fun ha => ?_, fun hb => ?_⟩ (fun _ => ?_) fun _ => ?_
    · rw [ha] at e; exact eq_of_beq e.symm
    · rw [hb] at e; exact eq_of_beq e
    · exact Sync.bind (Same.sync hv (shl_length h)) fun _ _ h' => sync_normLoop hv fuel _ _ _ h'
    · exact Sync.pure ⟨h, rfl⟩

theorem zeros_cons (w : U32) (l : List U32) : zeros (w :: l) = if w = 0#32 then zeros l + 1 else 0 := by
  rw [zeros, List.takeWhile_cons]
  by_cases h : w = 0#32
  · rw [if_pos h, if_pos (by rw [h]; rfl)]; rfl
  · rw [if_neg h, if_neg (by simpa using h)]; rfl

theorem zeros_le (l : List U32) : zeros l ≤ l.length := by
  induction l with
  | nil => exact Nat.le_refl _
  | cons w l ih =>
    rw [zeros_cons, List.length_cons]
    split <;> omega

theorem zeros_snoc (l : List U32) : zeros (l ++ [0#32]) = if zeros l = l.length then l.length + 1 else zeros l := by
  induction l with
  | nil => rfl
  | cons w l ih =>
    rw [List.cons_append, zeros_cons, zeros_cons, ih, List.length_cons]
    have := zeros_le l
    by_cases h : w = 0#32
    · rw [if_pos h, if_pos h]; split <;> split <;> omega
    · rw [if_neg h, if_neg h, if_neg (by omega)]

/-- For numbers with the same number of zero words at the top the loop has the same events. -/
theorem same_normLoop {m : Nat} : ∀ (fuel : Nat) (s s' : List U32) (shift : Nat), Len m s s' → zeros s.reverse = zeros s'.reverse → 
    Same blank (SameNorm m) (normLoopL fuel s shift) (normLoopL fuel s' shift) := by
  have top : ∀ (s : List U32) (a : U32), rd s (s.length - 1) = .ok a → ∃ l, s.reverse = a :: l := by
    intro s a h
    by_cases hl : s.length = 0
    · obtain rfl := List.length_eq_zero_iff.mp hl
      cases h
    · rw [rd_ok (by omega)] at h
      have h := Except.ok.inj h
      refine ⟨s.dropLast.reverse, ?_⟩
      have hs : s ≠ [] := by intro h; rw [h] at hl; exact hl rfl
      conv_lhs => rw [← List.dropLast_append_getLast hs]
      rw [List.reverse_append, List.reverse_singleton, List.singleton_append, List.getLast_eq_getElem, h]
  have bits : ∀ (s s' : List U32) (a b : U32), zeros s.reverse = zeros s'.reverse → rd s (s.length - 1) = .ok a → rd s' (s'.length - 1) = .ok b → (a = 0#32 ↔ b = 0#32) := by
    intro s s' a b h ha hb
    obtain ⟨l, e⟩ := top s a ha
    obtain ⟨l', e'⟩ := top s' b hb
    rw [e, e', zeros_cons, zeros_cons] at h
    constructor
    · intro h1; rw [if_pos h1] at h; by_contra h2; rw [if_neg h2] at h; omega
    · intro h1; rw [if_pos h1] at h; by_contra h2; rw [if_neg h2] at h; omega
  have rdS : ∀ (s s' : List U32), Len m s s' → Same blank (fun a b => rd s (s.length - 1) = .ok a ∧ rd s' (s'.length - 1) = .ok b) (rdL s (m - 1)) (rdL s' (m - 1)) := by
    intro s s' h
    refine ((Same.rd h.sl (m - 1)).and (P := fun a => rd s (s.length - 1) = .ok a) (Q := fun b => rd s' (s'.length - 1) = .ok b) ?_ ?_).mono fun _ _ h => h.2
    · intro a ha; rw [h.1]; exact ha
    · intro a ha; rw [h.2]; exact ha
  intro fuel
  induction fuel with
  | zero =>
    intro s s' shift h hz
    rw [normLoopL, normLoopL, h.1, h.2]
    refine Same.bind (rdS s s' h) fun a b hab => ?_
    have e := bits s s' a b hz hab.1 hab.2
    by_cases ha : a = 0#32
    · have hb := e.mp ha
      rw [ha, hb]
      exact Same.bind (Same.emit rfl) fun _ _ _ => Same.pure (by rw [if_pos rfl, if_pos rfl]; trivial)
    · have hb : b ≠ 0#32 := fun hb => ha (e.mpr hb)
      refine Same.bind (Same.emit (by rw [beq_eq_false_iff_ne.mpr ha, beq_eq_false_iff_ne.mpr hb])) fun _ _ _ => Same.pure ?_
      rw [if_neg ha, if_neg hb]; exact ⟨h, rfl⟩
  | succ fuel ih =>
    intro s s' shift h hz
    rw [normLoopL, normLoopL, h.1, h.2]
    refine Same.bind (rdS s s' h) fun a b hab => ?_
    have e := bits s s' a b hz hab.1 hab.2
    have eb : (a == 0#32) = (b == 0#32) := by
      rw [Bool.eq_iff_iff, beq_iff_eq, beq_iff_eq]; exact e
    refine Same.bind (Same.emit (by rw [eb])) fun _ _ _ => Same.ite e (fun ha => ?_) fun _ => Same.pure ⟨h, rfl⟩
    have shift1 : ∀ (s p : List U32) (a : U32), rd s (s.length - 1) = .ok a → a = 0#32 → (bnShlWordL s 1).res = .ok p →
        zeros p.reverse = if zeros s.reverse = s.length then s.length else zeros s.reverse - 1 := by
      intro s p a hr ha hp
      obtain ⟨l, el⟩ := top s a hr
      have hlen : s.length = l.length + 1 := by rw [← List.length_reverse, el, List.length_cons]
      rw [res_shlWord, bnShlWord_eq s 1 (by omega)] at hp
      rw [← Except.ok.inj hp]
      have hs : s = l.reverse ++ [a] := by rw [← List.reverse_reverse s, el, List.reverse_cons]
      have ht : s.take (s.length - 1) = l.reverse := by
        rw [hlen, Nat.add_sub_cancel]
        conv_lhs => rw [hs]
        rw [List.take_append_of_le_length (by rw [List.length_reverse]), List.take_of_length_le (by rw [List.length_reverse])]
      rw [ht, List.reverse_append, List.reverse_reverse, List.reverse_replicate, show List.replicate 1 0#32 = [0#32] from rfl, zeros_snoc, el, zeros_cons, if_pos ha, hlen]
      have := zeros_le l
      split <;> split <;> omega
    refine Same.bind ((shl_length h).and (P := fun p => zeros p.reverse = if zeros s.reverse = m then m else zeros s.reverse - 1)
      (Q := fun p => zeros p.reverse = if zeros s'.reverse = m then m else zeros s'.reverse - 1) ?_ ?_) fun p q hpq => ih _ _ _ hpq.1 ?_
    · intro p hp; rw [shift1 s p a hab.1 ha hp, h.1]
    · intro p hp; rw [shift1 s' p b hab.2 (e.mp ha) hp, h.2]
    · rw [hpq.2.1, hpq.2.2, hz]

end Verif.Proof
