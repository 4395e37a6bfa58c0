import Verif.Base.Basic

/-! Checked array accesses and counted loops of the model. -/

namespace Verif

/-- `v[i]` for an array `v`; out of bounds is undefined behaviour. -/
def rd {α : Type} (v : List α) (i : Nat) : Out α :=
  match v[i]? with
  | some x => .ok x
  | none => .error .ub

/-- `v[i] = x` for an array `v`; out of bounds is undefined behaviour. -/
def wr {α : Type} (v : List α) (i : Nat) (x : α) : Out (List α) :=
  if i < v.length then .ok (v.set i x) else .error .ub

/-- `for (size_t i = 0; i < n; i++) s = body(s, i);` -/
def loop {σ : Type} (n : Nat) (s : σ) (body : σ → Nat → Out σ) : Out σ :=
  match n with
  | 0 => .ok s
  | n + 1 => (loop n s body).bind (fun s => body s n)

theorem rd_ok {α : Type} {v : List α} {i : Nat} (h : i < v.length) : rd v i = .ok v[i] := by
  simp [rd, h]

theorem rd_ok_getD {α : Type} {v : List α} {i : Nat} (d : α) (h : i < v.length) : rd v i = .ok (v.getD i d) := by
  simp [rd, h]

theorem rd_ub {α : Type} {v : List α} {i : Nat} (h : v.length ≤ i) : rd v i = .error .ub := by
  simp [rd, h]

theorem wr_ok {α : Type} {v : List α} {i : Nat} (x : α) (h : i < v.length) : wr v i x = .ok (v.set i x) := by
  simp [wr, h]

theorem wr_ub {α : Type} {v : List α} {i : Nat} (x : α) (h : v.length ≤ i) : wr v i x = .error .ub := by
  simp [wr]; omega

/-- Loop rule. -/
theorem loop_inv {σ : Type} {n : Nat} {s : σ} {body : σ → Nat → Out σ} (P : Nat → σ → Prop) (h0 : P 0 s)
    (hs : ∀ i, i < n → ∀ s, P i s → ∃ s', body s i = .ok s' ∧ P (i + 1) s') : ∃ s', loop n s body = .ok s' ∧ P n s' := by
  induction n with
  | zero => exact ⟨s, rfl, h0⟩
  | succ n ih =>
    obtain ⟨s1, e1, p1⟩ := ih (fun i hi => hs i (by omega))
    obtain ⟨s2, e2, p2⟩ := hs n (by omega) s1 p1
    exact ⟨s2, by rw [loop, e1]; exact e2, p2⟩

/-- Once a pass of the loop fails, the loop fails. -/
theorem loop_error {σ : Type} {n m : Nat} {s : σ} {body : σ → Nat → Out σ} {f : Fault} (h : loop m s body = .error f) (hm : m ≤ n) :
    loop n s body = .error f := by
  induction n with
  | zero =>
    have : m = 0 := by omega
    subst this; exact h
  | succ n ih =>
    rcases Nat.lt_or_ge n m with h1 | h1
    · have : m = n + 1 := by omega
      rw [← this]; exact h
    · rw [loop, ih h1]; rfl

end Verif
