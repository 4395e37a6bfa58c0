import Verif.Proof.CrcOrder

/-! The powers of `x` modulo the CRC polynomial below `x^91639` differ pairwise by more than a constant: a search tree that the kernel fills. -/

set_option Elab.async false

namespace Verif.Proof
open Verif.Model

/-- A search tree of numbers. -/
inductive STree where
  | leaf : STree
  | node : STree → Nat → STree → STree

namespace STree

/-- Insert a number and go on with the tree; `false` if the number is there already. -/
noncomputable def ins (k : Nat) (t : STree) : (STree → Bool) → Bool :=
  STree.rec (motive := fun _ => (STree → Bool) → Bool) (fun c => c (.node .leaf k .leaf))
    (fun l a r il ir c => Bool.rec (Bool.rec false (ir (fun r' => c (.node l a r'))) (Nat.ble (Nat.succ a) k)) (il (fun l' => c (.node l' a r))) (Nat.ble (Nat.succ k) a)) t

def Has (x : Nat) : STree → Prop
  | leaf => False
  | node l a r => x = a ∨ l.Has x ∨ r.Has x

def Ordered : STree → Prop
  | leaf => True
  | node l a r => (∀ x, l.Has x → x < a) ∧ (∀ x, r.Has x → a < x) ∧ l.Ordered ∧ r.Ordered

theorem ins_spec (k : Nat) : ∀ (t : STree) (c : STree → Bool), t.Ordered → t.ins k c = true →
    ¬ t.Has k ∧ ∃ t', t'.Ordered ∧ (∀ x, t'.Has x ↔ x = k ∨ t.Has x) ∧ c t' = true := by
  intro t
  induction t with
  | leaf =>
    intro c _ h
    exact ⟨nofun, .node .leaf k .leaf, ⟨nofun, nofun, trivial, trivial⟩, fun x => by simp [Has], h⟩
  | node l a r il ir =>
    intro c ho h
    obtain ⟨hl, hr, ol, or⟩ := ho
    by_cases h1 : k < a
    · have h' : l.ins k (fun l' => c (.node l' a r)) = true := by
        have : Nat.ble (Nat.succ k) a = true := Nat.ble_eq.mpr h1
        change (Bool.rec _ (l.ins k fun l' => c (.node l' a r)) (Nat.ble (Nat.succ k) a) : Bool) = true at h
        rw [this] at h
        exact h
      obtain ⟨hn, l', o', m', hc⟩ := il _ ol h'
      refine ⟨?_, .node l' a r, ⟨?_, hr, o', or⟩, ?_, hc⟩
      · rintro (e | e | e)
        · omega
        · exact hn e
        · have := hr _ e; omega
      · intro x hx
        rcases (m' x).mp hx with e | e
        · omega
        · exact hl x e
      · intro x
        simp only [Has, m']
        constructor
        · rintro (e | (e | e) | e) <;> simp [e]
        · rintro (e | e | e | e) <;> simp [e]
    · have hb : Nat.ble (Nat.succ k) a = false := by
        rw [← Bool.not_eq_true, Nat.ble_eq]; exact h1
      change (Bool.rec (Bool.rec false (r.ins k fun r' => c (.node l a r')) (Nat.ble (Nat.succ a) k)) _ (Nat.ble (Nat.succ k) a) : Bool) = true at h
      rw [hb] at h
      change (Bool.rec false (r.ins k fun r' => c (.node l a r')) (Nat.ble (Nat.succ a) k) : Bool) = true at h
      by_cases h2 : a < k
      · rw [show Nat.ble (Nat.succ a) k = true from Nat.ble_eq.mpr h2] at h
        obtain ⟨hn, r', o', m', hc⟩ := ir _ or h
        refine ⟨?_, .node l a r', ⟨hl, ?_, ol, o'⟩, ?_, hc⟩
        · rintro (e | e | e)
          · omega
          · have := hl _ e; omega
          · exact hn e
        · intro x hx
          rcases (m' x).mp hx with e | e
          · omega
          · exact hr x e
        · intro x
          simp only [Has, m']
          constructor
          · rintro (e | e | e | e) <;> simp [e]
          · rintro (e | e | e | e) <;> simp [e]
      · have : Nat.ble (Nat.succ a) k = false := by
          rw [← Bool.not_eq_true, Nat.ble_eq]; exact h2
        rw [this] at h
        exact nomatch h

end STree

/-- Evaluate a number before going on. -/
noncomputable def forceNat (v : Nat) (c : Nat → Bool) : Bool := Nat.rec (motive := fun _ => Bool) (c 0) (fun p _ => c (Nat.succ p)) v

theorem forceNat_eq (v : Nat) (c : Nat → Bool) : forceNat v c = c v := by cases v <;> rfl

/-- Multiplication by `x` on the register as a number. -/
def crcNext (v : Nat) : Nat := Nat.xor (Nat.div v 2) (Nat.mul (Nat.mod v 2) 3988292384)

/-- Insert the powers from `v` on, without their constant coefficient, those of class `q`. -/
noncomputable def crcFill (q n : Nat) : Nat → STree → Bool :=
  Nat.rec (motive := fun _ => Nat → STree → Bool) (fun _ _ => true)
    (fun _ ih v t => forceNat (crcNext v) fun v' => Bool.rec (ih v' t) (forceNat (Nat.mod v 2147483648) fun k => STree.ins k t fun t' => ih v' t') (Nat.beq (Nat.mod v 8) q)) n

theorem crcFill_spec (q : Nat) : ∀ (n v : Nat) (t : STree), t.Ordered → crcFill q n v t = true →
    (∀ i < n, crcNext^[i] v % 8 = q → ¬ t.Has (crcNext^[i] v % 2147483648)) ∧
    ∀ i j, i < j → j < n → crcNext^[i] v % 8 = q → crcNext^[j] v % 8 = q → crcNext^[i] v % 2147483648 ≠ crcNext^[j] v % 2147483648 := by
  intro n
  induction n with
  | zero => intro v t _ _; exact ⟨nofun, fun _ _ _ h => nomatch h⟩
  | succ n ih =>
    intro v t ho h
    change forceNat (crcNext v) (fun v' => Bool.rec (crcFill q n v' t) (forceNat (Nat.mod v 2147483648) fun k => STree.ins k t fun t' => crcFill q n v' t') (Nat.beq (Nat.mod v 8) q)) = true at h
    rw [forceNat_eq] at h
    by_cases hq : v % 8 = q
    · rw [show Nat.beq (Nat.mod v 8) q = true from Nat.beq_eq.mpr hq] at h
      change forceNat (Nat.mod v 2147483648) (fun k => STree.ins k t fun t' => crcFill q n (crcNext v) t') = true at h
      rw [forceNat_eq] at h
      obtain ⟨hn, t', o', m', hc⟩ := STree.ins_spec _ t _ ho h
      obtain ⟨a, b⟩ := ih (crcNext v) t' o' hc
      constructor
      · intro i hi hqi
        cases i with
        | zero => exact hn
        | succ i =>
          have := a i (by omega) hqi
          rw [m'] at this
          exact fun e => this (Or.inr e)
      · intro i j hij hj hi2 hj2
        cases j with
        | zero => omega
        | succ j =>
          cases i with
          | zero =>
            intro e
            have := a j (by omega) hj2
            rw [m'] at this
            exact this (Or.inl e.symm)
          | succ i => exact b i j (by omega) (by omega) hi2 hj2
    · have hb : Nat.beq (Nat.mod v 8) q = false := by
        rw [← Bool.not_eq_true, Nat.beq_eq]; exact hq
      rw [hb] at h
      change crcFill q n (crcNext v) t = true at h
      obtain ⟨a, b⟩ := ih (crcNext v) t ho h
      constructor
      · intro i hi hqi
        cases i with
        | zero => exact absurd hqi hq
        | succ i => exact a i (by omega) hqi
      · intro i j hij hj hi2 hj2
        cases j with
        | zero => omega
        | succ j =>
          cases i with
          | zero => exact absurd hi2 hq
          | succ i => exact b i j (by omega) (by omega) hi2 hj2

theorem fill0 : crcFill 0 91639 2147483648 .leaf = true := by decide +kernel
theorem fill1 : crcFill 1 91639 2147483648 .leaf = true := by decide +kernel
theorem fill2 : crcFill 2 91639 2147483648 .leaf = true := by decide +kernel
theorem fill3 : crcFill 3 91639 2147483648 .leaf = true := by decide +kernel
theorem fill4 : crcFill 4 91639 2147483648 .leaf = true := by decide +kernel
theorem fill5 : crcFill 5 91639 2147483648 .leaf = true := by decide +kernel
theorem fill6 : crcFill 6 91639 2147483648 .leaf = true := by decide +kernel
theorem fill7 : crcFill 7 91639 2147483648 .leaf = true := by decide +kernel

theorem crcNext_eq (v : U32) : crcNext v.toNat = (crcU v).toNat := by
  rw [crcU, BitVec.toNat_xor, BitVec.toNat_ushiftRight, Nat.shiftRight_eq_div_pow, crcNext]
  change (v.toNat / 2) ^^^ (v.toNat % 2 * 3988292384) = _
  congr 1
  rw [BitVec.getLsbD, Nat.testBit_zero]
  rcases Nat.mod_two_eq_zero_or_one v.toNat with h | h <;> rw [h] <;> rfl

theorem crcNext_iter (n : Nat) (v : U32) : crcNext^[n] v.toNat = (crcU^[n] v).toNat := by
  induction n generalizing v with
  | zero => rfl
  | succ n ih => rw [Function.iterate_succ_apply, Function.iterate_succ_apply, crcNext_eq, ih]

/-- No power of `x` below `x^91639` is another one plus a constant. -/
theorem crcPow_apart (i j : Nat) (hij : i < j) (hj : j < 91639) : (crcPow i).toNat % 2147483648 ≠ (crcPow j).toNat % 2147483648 := by
  intro e
  have hc : (crcPow i).toNat % 8 = (crcPow j).toNat % 8 := by omega
  have key : ∀ q, crcFill q 91639 2147483648 .leaf = true → (crcPow i).toNat % 8 ≠ q := by
    intro q hf hq
    have := (crcFill_spec q 91639 2147483648 .leaf trivial hf).2 i j hij hj
    rw [show crcNext^[i] 2147483648 = (crcPow i).toNat from crcNext_iter i crcOne, show crcNext^[j] 2147483648 = (crcPow j).toNat from crcNext_iter j crcOne] at this
    exact this hq (hc ▸ hq) e
  have k0 := key 0 fill0
  have k1 := key 1 fill1
  have k2 := key 2 fill2
  have k3 := key 3 fill3
  have k4 := key 4 fill4
  have k5 := key 5 fill5
  have k6 := key 6 fill6
  have k7 := key 7 fill7
  omega

end Verif.Proof
