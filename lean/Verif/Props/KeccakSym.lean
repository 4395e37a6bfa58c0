import Verif.Props.KeccakPerm

/-! C156: what the round constants of SHA-3 are for. -/

namespace Verif.Props
open Verif.Model Verif.Proof

/-- The steps of a round in front of iota: src/sha3.cpp:64-117 -/
def sha3Core (s : List U64) : List U64 := sha3Chi (sha3RhoPi (sha3Theta s))

/-- Every lane rotated by `k` bits. -/
def turn (k : Nat) (s : List U64) : List U64 := s.map (fun v => v.rotateLeft k)

theorem rot_bit (v : U64) (k i : Nat) (hi : i < 64) : (v.rotateLeft k).getLsbD i = v.getLsbD ((i + 64 - k % 64) % 64) := by
  rw [BitVec.getLsbD_rotateLeft]
  have := Nat.mod_lt k (show 0 < 64 by decide)
  by_cases h : i < k % 64
  · rw [Bool.cond_eq_ite, if_pos (by simpa using h), Nat.mod_eq_of_lt (by omega : i + 64 - k % 64 < 64)]
    congr 1; omega
  · rw [Bool.cond_eq_ite, if_neg (by simpa using h), decide_eq_true hi, Bool.true_and, show (i + 64 - k % 64) % 64 = i - k % 64 by omega]

theorem bit_ext {a b : U64} (h : ∀ i, i < 64 → a.getLsbD i = b.getLsbD i) : a = b := BitVec.eq_of_getLsbD_eq (fun i hi => h i hi)

theorem rot_xor (k : Nat) (a b : U64) : (a ^^^ b).rotateLeft k = a.rotateLeft k ^^^ b.rotateLeft k :=
  bit_ext fun i hi => by rw [rot_bit _ _ _ hi, BitVec.getLsbD_xor, BitVec.getLsbD_xor, rot_bit _ _ _ hi, rot_bit _ _ _ hi]

theorem rot_and (k : Nat) (a b : U64) : (a &&& b).rotateLeft k = a.rotateLeft k &&& b.rotateLeft k :=
  bit_ext fun i hi => by rw [rot_bit _ _ _ hi, BitVec.getLsbD_and, BitVec.getLsbD_and, rot_bit _ _ _ hi, rot_bit _ _ _ hi]

theorem rot_not (k : Nat) (a : U64) : (~~~a).rotateLeft k = ~~~(a.rotateLeft k) :=
  bit_ext fun i hi => by
    rw [rot_bit _ _ _ hi, BitVec.getLsbD_not, BitVec.getLsbD_not, rot_bit _ _ _ hi, decide_eq_true hi, decide_eq_true (Nat.mod_lt _ (by decide))]

theorem rot_zero (k : Nat) : (0#64).rotateLeft k = 0#64 := bit_ext fun i hi => by rw [rot_bit _ _ _ hi]; simp

theorem rot_comm (k l : Nat) (a : U64) : (a.rotateLeft l).rotateLeft k = (a.rotateLeft k).rotateLeft l :=
  bit_ext fun i hi => by
    rw [rot_bit _ _ _ hi, rot_bit _ _ _ hi, rot_bit _ _ _ (Nat.mod_lt _ (by decide)), rot_bit _ _ _ (Nat.mod_lt _ (by decide))]
    congr 1; omega

theorem rot_or (a : U64) (l r : Nat) (h : l + r = 64) (hl : l < 64) : (a <<< l) ||| (a >>> r) = a.rotateLeft l := by
  rw [BitVec.rotateLeft_def, Nat.mod_eq_of_lt hl, show 64 - l = r by omega]

theorem rot_one (a : U64) : (a <<< 1) ^^^ (a >>> 63) = a.rotateLeft 1 := by
  rw [← rot_or a 1 63 rfl (by decide)]
  refine bit_ext fun i hi => ?_
  rw [BitVec.getLsbD_xor, BitVec.getLsbD_or, BitVec.getLsbD_shiftLeft, BitVec.getLsbD_ushiftRight]
  by_cases h : i < 1
  · simp [h]
  · rw [BitVec.getLsbD_of_ge a (63 + i) (by omega)]; simp

theorem turn_getD (k : Nat) (s : List U64) (i : Nat) : (turn k s).getD i 0#64 = (s.getD i 0#64).rotateLeft k := by
  rw [turn, List.getD_eq_getElem?_getD, List.getD_eq_getElem?_getD, List.getElem?_map]
  cases s[i]? with
  | none => exact (rot_zero k).symm
  | some v => rfl

theorem turn_set (k : Nat) (s : List U64) (i : Nat) (v : U64) : (turn k s).set i (v.rotateLeft k) = turn k (s.set i v) := by
  rw [turn, turn, List.map_set]

theorem turn_xorAt (k : Nat) (s : List U64) (i : Nat) (v : U64) : xorAt (turn k s) i (v.rotateLeft k) = turn k (xorAt s i v) := by
  rw [xorAt, xorAt, turn_getD, ← rot_xor, turn_set]

theorem foldl_turn {β : Type} (k : Nat) (f g : List U64 → β → List U64) (L : List β) (h : ∀ x ∈ L, ∀ s, f (turn k s) x = turn k (g s x)) :
    ∀ s, L.foldl f (turn k s) = turn k (L.foldl g s) := by
  induction L with
  | nil => exact fun _ => rfl
  | cons x L ih =>
    intro s
    rw [List.foldl_cons, List.foldl_cons, h x (by simp), ih (fun y hy => h y (by simp [hy]))]

theorem turn_map_range (k n : Nat) (f g : Nat → U64) (h : ∀ x, g x = (f x).rotateLeft k) : (List.range n).map g = turn k ((List.range n).map f) := by
  rw [turn, List.map_map]
  exact List.map_congr_left (fun x _ => h x)

theorem theta_turn (k : Nat) (s : List U64) : sha3Theta (turn k s) = turn k (sha3Theta s) := by
  unfold sha3Theta
  have hc : ∀ x, (List.range 5).foldl (fun (a : U64) y => a ^^^ (turn k s).getD (y * 5 + x) 0#64) 0#64 =
      ((List.range 5).foldl (fun (a : U64) y => a ^^^ s.getD (y * 5 + x) 0#64) 0#64).rotateLeft k := by
    intro x
    have : ∀ (L : List Nat) (a : U64), L.foldl (fun (a : U64) y => a ^^^ (turn k s).getD (y * 5 + x) 0#64) (a.rotateLeft k) =
        (L.foldl (fun (a : U64) y => a ^^^ s.getD (y * 5 + x) 0#64) a).rotateLeft k := by
      intro L
      induction L with
      | nil => exact fun _ => rfl
      | cons y L ih => intro a; rw [List.foldl_cons, List.foldl_cons, turn_getD, ← rot_xor, ih]
    rw [← this, rot_zero]
  rw [turn_map_range k 5 _ _ hc]
  generalize (List.range 5).map (fun x => (List.range 5).foldl (fun (a : U64) y => a ^^^ s.getD (y * 5 + x) 0#64) 0#64) = c
  simp only [rot_one]
  rw [turn_map_range k 5 (fun x => (c.getD ((x + 1) % 5) 0#64).rotateLeft 1 ^^^ c.getD ((x + 4) % 5) 0#64) _
    (fun x => by rw [turn_getD, turn_getD, rot_xor, rot_comm])]
  generalize (List.range 5).map (fun x => (c.getD ((x + 1) % 5) 0#64).rotateLeft 1 ^^^ c.getD ((x + 4) % 5) 0#64) = d
  refine foldl_turn k _ _ _ (fun x _ s => ?_) s
  simp only [turn_getD, turn_xorAt]

theorem rhoPi_turn (k : Nat) (s : List U64) : sha3RhoPi (turn k s) = turn k (sha3RhoPi s) := by
  unfold sha3RhoPi
  have hch : ∀ e ∈ sha3Chain, e.2.2.1 + e.2.2.2 = 64 ∧ e.2.2.1 < 64 := by decide
  simp only
  rw [turn_getD, rot_or _ 28 36 rfl (by decide), rot_or _ 28 36 rfl (by decide), rot_comm, foldl_turn k _ (fun s (e : Nat × Nat × Nat × Nat) => s.set e.1 ((s.getD e.2.1 0#64 <<< e.2.2.1) ||| (s.getD e.2.1 0#64 >>> e.2.2.2))) sha3Chain, turn_set]
  intro e he s
  obtain ⟨h1, h2⟩ := hch e he
  rw [turn_getD, rot_or _ _ _ h1 h2, rot_or _ _ _ h1 h2, rot_comm, turn_set]

theorem chi_turn (k : Nat) (s : List U64) : sha3Chi (turn k s) = turn k (sha3Chi s) := by
  unfold sha3Chi
  refine foldl_turn k _ _ _ (fun y _ s => ?_) s
  simp only
  rw [turn_map_range k 5 (fun x => s.getD (y * 5 + x) 0#64 ^^^ (~~~ s.getD (5 * y + ((x + 1) % 5)) 0#64 &&& s.getD (5 * y + ((x + 2) % 5)) 0#64)) _
    (fun x => by rw [turn_getD, turn_getD, turn_getD, rot_xor, rot_and, rot_not])]
  refine foldl_turn k _ _ _ (fun x _ s => ?_) s
  rw [turn_getD, turn_set]

/-- C156: theta, rho, pi and chi treat all bit positions of the lanes alike: on rotated lanes they give the rotated result. -/
theorem C156_symmetric (k : Nat) (s : List U64) : sha3Core (turn k s) = turn k (sha3Core s) := by
  unfold sha3Core
  rw [theta_turn, rhoPi_turn, chi_turn]

/-- Lanes that are not all alike. -/
example : turn 8 ((List.range 25).map (BitVec.ofNat 64)) ≠ (List.range 25).map (BitVec.ofNat 64) := by decide +kernel

/-- The model's round is these steps and the constant. -/
theorem process_core (s : List U64) : sha3Process s = (List.range 24).foldl (fun s r => xorAt (sha3Core s) 0 (sha3RC.getD r 0#64)) s := rfl

/-- No round constant survives a rotation. -/
theorem rc_turn : ∀ r < 24, ∀ k < 64, k ≠ 0 → (sha3RC.getD r 0#64).rotateLeft k ≠ sha3RC.getD r 0#64 := by decide +kernel

theorem core_length {s : List U64} (h : s.length = 25) : (sha3Core s).length = 25 := by
  have set_len : ∀ (L : List Nat) (f : List U64 → Nat → List U64), (∀ s x, (f s x).length = s.length) → ∀ s, (L.foldl f s).length = s.length := by
    intro L f hf
    induction L with
    | nil => exact fun _ => rfl
    | cons x L ih => intro s; rw [List.foldl_cons, ih, hf]
  have t : (sha3Theta s).length = s.length := set_len _ _ (fun s x => by simp only [xorAt_length]) s
  have r : ∀ s : List U64, (sha3RhoPi s).length = s.length := by
    intro s
    unfold sha3RhoPi
    rw [List.length_set]
    have : ∀ (L : List (Nat × Nat × Nat × Nat)) (s : List U64),
        (L.foldl (fun s (e : Nat × Nat × Nat × Nat) => s.set e.1 ((s.getD e.2.1 0#64 <<< e.2.2.1) ||| (s.getD e.2.1 0#64 >>> e.2.2.2))) s).length = s.length := by
      intro L
      induction L with
      | nil => exact fun _ => rfl
      | cons x L ih => intro s; rw [List.foldl_cons, ih, List.length_set]
    exact this _ _
  have c : ∀ s : List U64, (sha3Chi s).length = s.length := by
    intro s
    refine set_len _ _ (fun s y => ?_) s
    exact set_len _ _ (fun s x => by rw [List.length_set]) s
  rw [sha3Core, c, r, t, h]

/-- C156: with the constant no round does: for no state and no rotation other than by a multiple of 64 is the result of a whole round on the rotated lanes the rotated
result. -/
theorem C156_broken (r : Nat) (hr : r < 24) (k : Nat) (hk : k % 64 ≠ 0) (s : List U64) (hs : s.length = 25) :
    xorAt (sha3Core (turn k s)) 0 (sha3RC.getD r 0#64) ≠ turn k (xorAt (sha3Core s) 0 (sha3RC.getD r 0#64)) := by
  intro h
  rw [C156_symmetric, ← turn_xorAt] at h
  have e := congrArg (fun l => l.getD 0 0#64) h
  have l : (turn k (sha3Core s)).length = 25 := by rw [turn, List.length_map, core_length hs]
  simp only [xorAt, getD_set, l] at e
  rw [if_pos (by simp), if_pos (by simp)] at e
  have e2 : sha3RC.getD r 0#64 = (sha3RC.getD r 0#64).rotateLeft k := BitVec.xor_right_inj _ |>.mp e
  have e3 : (sha3RC.getD r 0#64).rotateLeft k = (sha3RC.getD r 0#64).rotateLeft (k % 64) := by rw [BitVec.rotateLeft_mod_eq_rotateLeft]
  exact rc_turn r hr (k % 64) (Nat.mod_lt _ (by decide)) hk (e3.symm.trans e2.symm)

example : 23 < 24 ∧ 63 % 64 ≠ 0 ∧ ((List.range 25).map (BitVec.ofNat 64)).length = 25 := by decide

/-- C156: without constants, equal bits in every lane would stay so through any number of rounds: `k` rotations that leave a state unchanged leave the result unchanged. -/
theorem C156_without (k n : Nat) (s : List U64) (h : turn k s = s) : turn k (sha3Core^[n] s) = sha3Core^[n] s := by
  induction n with
  | zero => exact h
  | succ n ih => rw [Function.iterate_succ_apply', ← C156_symmetric, ih]

/-- Lanes of bytes repeated. -/
example : turn 8 (List.replicate 25 0x2323232323232323#64) = List.replicate 25 0x2323232323232323#64 := by decide +kernel

end Verif.Props
