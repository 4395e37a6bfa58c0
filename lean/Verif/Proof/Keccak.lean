import Lean.Elab.Tactic
import Verif.Model.Sha3
import Verif.Spec.Sha3
import Mathlib.Data.List.GetD
import Mathlib.Tactic.IntervalCases

/-! The permutation of src/sha3.cpp is KECCAK-p[1600,24]. -/

namespace Verif.Proof
open Verif.Model Verif.Spec

theorem list25 {α : Type} (s : List α) (h : s.length = 25) : ∃ a0 a1 a2 a3 a4 a5 a6 a7 a8 a9 a10 a11 a12 a13 a14 a15 a16 a17 a18 a19 a20 a21 a22 a23 a24, s = [a0, a1, a2, a3, a4, a5, a6, a7, a8, a9, a10, a11, a12, a13, a14, a15, a16, a17, a18, a19, a20, a21, a22, a23, a24] := by
  match s, h with
  | [a0, a1, a2, a3, a4, a5, a6, a7, a8, a9, a10, a11, a12, a13, a14, a15, a16, a17, a18, a19, a20, a21, a22, a23, a24], _ => exact ⟨a0, a1, a2, a3, a4, a5, a6, a7, a8, a9, a10, a11, a12, a13, a14, a15, a16, a17, a18, a19, a20, a21, a22, a23, a24, rfl⟩

/-- Closes `a = b` by `Eq.refl a`, leaving the conversion check to the kernel alone. -/
elab "kernel_rfl" : tactic => do
  let g ← Lean.Elab.Tactic.getMainGoal
  let t ← Lean.instantiateMVars (← g.getType)
  match t.eq? with
  | some (_, lhs, _) => g.assign (← Lean.Meta.mkEqRefl lhs)
  | none => throwError "not an equation"

/-! The steps with the word operations abstracted, so that the data flow can be evaluated. -/

section generic
variable {α : Type} (z : α) (xor : α → α → α) (dd : α → α → α) (rot : α → Nat → Nat → α) (ch : α → α → α → α)

def xorAtG (s : List α) (i : Nat) (v : α) : List α := s.set i (xor (s.getD i z) v)

def thetaG (s : List α) : List α :=
  let c := (List.range 5).map (fun x => (List.range 5).foldl (fun (a : α) y => xor a (s.getD (y * 5 + x) z)) z)
  let d := (List.range 5).map (fun x => dd (c.getD ((x + 1) % 5) z) (c.getD ((x + 4) % 5) z))
  (List.range 5).foldl (fun s x =>
    let s := xorAtG z xor s x (d.getD x z)
    let s := xorAtG z xor s (x + 5) (d.getD x z)
    let s := xorAtG z xor s (x + 10) (d.getD x z)
    let s := xorAtG z xor s (x + 15) (d.getD x z)
    xorAtG z xor s (x + 20) (d.getD x z)) s

def rhoPiG (s : List α) : List α :=
  let t := rot (s.getD 3 z) 28 36
  let s := sha3Chain.foldl (fun s (dst, src, l, r) => s.set dst (rot (s.getD src z) l r)) s
  s.set 5 t

def chiG (s : List α) : List α :=
  (List.range 5).foldl (fun s y =>
    let c := (List.range 5).map (fun x =>
      ch (s.getD (y * 5 + x) z) (s.getD (5 * y + ((x + 1) % 5)) z) (s.getD (5 * y + ((x + 2) % 5)) z))
    (List.range 5).foldl (fun s x => s.set (y * 5 + x) (c.getD x z)) s) s

theorem thetaG_list (a0 a1 a2 a3 a4 a5 a6 a7 a8 a9 a10 a11 a12 a13 a14 a15 a16 a17 a18 a19 a20 a21 a22 a23 a24 : α) : thetaG z xor dd [a0, a1, a2, a3, a4, a5, a6, a7, a8, a9, a10, a11, a12, a13, a14, a15, a16, a17, a18, a19, a20, a21, a22, a23, a24] =
    let c0 := xor (xor (xor (xor (xor z a0) a5) a10) a15) a20
    let c1 := xor (xor (xor (xor (xor z a1) a6) a11) a16) a21
    let c2 := xor (xor (xor (xor (xor z a2) a7) a12) a17) a22
    let c3 := xor (xor (xor (xor (xor z a3) a8) a13) a18) a23
    let c4 := xor (xor (xor (xor (xor z a4) a9) a14) a19) a24
    let d0 := dd c1 c4
    let d1 := dd c2 c0
    let d2 := dd c3 c1
    let d3 := dd c4 c2
    let d4 := dd c0 c3
    [xor a0 d0, xor a1 d1, xor a2 d2, xor a3 d3, xor a4 d4, xor a5 d0, xor a6 d1, xor a7 d2, xor a8 d3, xor a9 d4, xor a10 d0, xor a11 d1, xor a12 d2, xor a13 d3, xor a14 d4, xor a15 d0, xor a16 d1, xor a17 d2, xor a18 d3, xor a19 d4, xor a20 d0, xor a21 d1, xor a22 d2, xor a23 d3, xor a24 d4] := by kernel_rfl

theorem rhoPiG_list (a0 a1 a2 a3 a4 a5 a6 a7 a8 a9 a10 a11 a12 a13 a14 a15 a16 a17 a18 a19 a20 a21 a22 a23 a24 : α) : rhoPiG z rot [a0, a1, a2, a3, a4, a5, a6, a7, a8, a9, a10, a11, a12, a13, a14, a15, a16, a17, a18, a19, a20, a21, a22, a23, a24] =
    [a0, rot a6 44 20, rot a12 43 21, rot a18 21 43, rot a24 14 50, rot a3 28 36, rot a9 20 44, rot a10 3 61, rot a16 45 19, rot a22 61 3, rot a1 1 63, rot a7 6 58, rot a13 25 39, rot a19 8 56, rot a20 18 46, rot a4 27 37, rot a5 36 28, rot a11 10 54, rot a17 15 49, rot a23 56 8, rot a2 62 2, rot a8 55 9, rot a14 39 25, rot a15 41 23, rot a21 2 62] := by kernel_rfl

theorem chiG_list (a0 a1 a2 a3 a4 a5 a6 a7 a8 a9 a10 a11 a12 a13 a14 a15 a16 a17 a18 a19 a20 a21 a22 a23 a24 : α) : chiG z ch [a0, a1, a2, a3, a4, a5, a6, a7, a8, a9, a10, a11, a12, a13, a14, a15, a16, a17, a18, a19, a20, a21, a22, a23, a24] =
    [ch a0 a1 a2, ch a1 a2 a3, ch a2 a3 a4, ch a3 a4 a0, ch a4 a0 a1, ch a5 a6 a7, ch a6 a7 a8, ch a7 a8 a9, ch a8 a9 a5, ch a9 a5 a6, ch a10 a11 a12, ch a11 a12 a13, ch a12 a13 a14, ch a13 a14 a10, ch a14 a10 a11, ch a15 a16 a17, ch a16 a17 a18, ch a17 a18 a19, ch a18 a19 a15, ch a19 a15 a16, ch a20 a21 a22, ch a21 a22 a23, ch a22 a23 a24, ch a23 a24 a20, ch a24 a20 a21] := by kernel_rfl

end generic

theorem theta_G (s : List U64) : sha3Theta s = thetaG 0#64 (· ^^^ ·) (fun a b => (a <<< 1) ^^^ (a >>> 63) ^^^ b) s := rfl
theorem rhoPi_G (s : List U64) : sha3RhoPi s = rhoPiG 0#64 (fun a l r => (a <<< l) ||| (a >>> r)) s := rfl
theorem chi_G (s : List U64) : sha3Chi s = chiG 0#64 (fun a b c => a ^^^ (~~~ b &&& c)) s := rfl

/-- The lanes of the code hold the state array of the standard. -/
structure RA (s : List U64) (A : Keccak.StateArray) : Prop where
  len : s.length = 25
  bit : ∀ x < 5, ∀ y < 5, ∀ z < 64, (s.getD (5 * y + x) 0#64).getLsbD z = A x y z

theorem rot1_bit (v : U64) (z : Nat) (hz : z < 64) :
    ((v <<< 1) ^^^ (v >>> 63)).getLsbD z = v.getLsbD ((z + 63) % 64) := by
  rw [BitVec.getLsbD_xor, BitVec.getLsbD_shiftLeft, BitVec.getLsbD_ushiftRight]
  by_cases h : z < 1
  · have : z = 0 := by omega
    subst this; simp
  · rw [show (z + 63) % 64 = z - 1 by omega, BitVec.getLsbD_of_ge _ (63 + z) (by omega)]
    simp [h, hz]

theorem rot_bit (v : U64) (l : Nat) (hl : l < 64) (z : Nat) (hz : z < 64) :
    ((v <<< l) ||| (v >>> (64 - l))).getLsbD z = v.getLsbD ((z + (64 - l)) % 64) := by
  rw [BitVec.getLsbD_or, BitVec.getLsbD_shiftLeft, BitVec.getLsbD_ushiftRight]
  by_cases h : z < l
  · rw [show (z + (64 - l)) % 64 = 64 - l + z by omega]
    simp [h]
  · rw [show (z + (64 - l)) % 64 = z - l by omega, BitVec.getLsbD_of_ge _ (64 - l + z) (by omega)]
    simp [h, hz]

/-- The lanes of a state array, listed. -/
theorem ra_list {a0 a1 a2 a3 a4 a5 a6 a7 a8 a9 a10 a11 a12 a13 a14 a15 a16 a17 a18 a19 a20 a21 a22 a23 a24 : U64} {A : Keccak.StateArray} :
    (∀ z < 64, a0.getLsbD z = A 0 0 z ∧ a1.getLsbD z = A 1 0 z ∧ a2.getLsbD z = A 2 0 z ∧ a3.getLsbD z = A 3 0 z ∧ a4.getLsbD z = A 4 0 z ∧ a5.getLsbD z = A 0 1 z ∧ a6.getLsbD z = A 1 1 z ∧ a7.getLsbD z = A 2 1 z ∧ a8.getLsbD z = A 3 1 z ∧ a9.getLsbD z = A 4 1 z ∧ a10.getLsbD z = A 0 2 z ∧ a11.getLsbD z = A 1 2 z ∧ a12.getLsbD z = A 2 2 z ∧ a13.getLsbD z = A 3 2 z ∧ a14.getLsbD z = A 4 2 z ∧ a15.getLsbD z = A 0 3 z ∧ a16.getLsbD z = A 1 3 z ∧ a17.getLsbD z = A 2 3 z ∧ a18.getLsbD z = A 3 3 z ∧ a19.getLsbD z = A 4 3 z ∧ a20.getLsbD z = A 0 4 z ∧ a21.getLsbD z = A 1 4 z ∧ a22.getLsbD z = A 2 4 z ∧ a23.getLsbD z = A 3 4 z ∧ a24.getLsbD z = A 4 4 z) →
    RA [a0, a1, a2, a3, a4, a5, a6, a7, a8, a9, a10, a11, a12, a13, a14, a15, a16, a17, a18, a19, a20, a21, a22, a23, a24] A := by
  intro h
  refine ⟨rfl, ?_⟩
  intro x hx y hy z hz
  obtain ⟨h0, h1, h2, h3, h4, h5, h6, h7, h8, h9, h10, h11, h12, h13, h14, h15, h16, h17, h18, h19, h20, h21, h22, h23, h24⟩ := h z hz
  interval_cases y <;> interval_cases x <;> assumption

theorem ra_lanes {a0 a1 a2 a3 a4 a5 a6 a7 a8 a9 a10 a11 a12 a13 a14 a15 a16 a17 a18 a19 a20 a21 a22 a23 a24 : U64} {A : Keccak.StateArray} (h : RA [a0, a1, a2, a3, a4, a5, a6, a7, a8, a9, a10, a11, a12, a13, a14, a15, a16, a17, a18, a19, a20, a21, a22, a23, a24] A) :
    ∀ z < 64, A 0 0 z = a0.getLsbD z ∧ A 1 0 z = a1.getLsbD z ∧ A 2 0 z = a2.getLsbD z ∧ A 3 0 z = a3.getLsbD z ∧ A 4 0 z = a4.getLsbD z ∧ A 0 1 z = a5.getLsbD z ∧ A 1 1 z = a6.getLsbD z ∧ A 2 1 z = a7.getLsbD z ∧ A 3 1 z = a8.getLsbD z ∧ A 4 1 z = a9.getLsbD z ∧ A 0 2 z = a10.getLsbD z ∧ A 1 2 z = a11.getLsbD z ∧ A 2 2 z = a12.getLsbD z ∧ A 3 2 z = a13.getLsbD z ∧ A 4 2 z = a14.getLsbD z ∧ A 0 3 z = a15.getLsbD z ∧ A 1 3 z = a16.getLsbD z ∧ A 2 3 z = a17.getLsbD z ∧ A 3 3 z = a18.getLsbD z ∧ A 4 3 z = a19.getLsbD z ∧ A 0 4 z = a20.getLsbD z ∧ A 1 4 z = a21.getLsbD z ∧ A 2 4 z = a22.getLsbD z ∧ A 3 4 z = a23.getLsbD z ∧ A 4 4 z = a24.getLsbD z := by
  intro z hz
  have hb := h.bit
  exact ⟨(hb 0 (by omega) 0 (by omega) z hz).symm, (hb 1 (by omega) 0 (by omega) z hz).symm, (hb 2 (by omega) 0 (by omega) z hz).symm, (hb 3 (by omega) 0 (by omega) z hz).symm, (hb 4 (by omega) 0 (by omega) z hz).symm, (hb 0 (by omega) 1 (by omega) z hz).symm, (hb 1 (by omega) 1 (by omega) z hz).symm, (hb 2 (by omega) 1 (by omega) z hz).symm, (hb 3 (by omega) 1 (by omega) z hz).symm, (hb 4 (by omega) 1 (by omega) z hz).symm, (hb 0 (by omega) 2 (by omega) z hz).symm, (hb 1 (by omega) 2 (by omega) z hz).symm, (hb 2 (by omega) 2 (by omega) z hz).symm, (hb 3 (by omega) 2 (by omega) z hz).symm, (hb 4 (by omega) 2 (by omega) z hz).symm, (hb 0 (by omega) 3 (by omega) z hz).symm, (hb 1 (by omega) 3 (by omega) z hz).symm, (hb 2 (by omega) 3 (by omega) z hz).symm, (hb 3 (by omega) 3 (by omega) z hz).symm, (hb 4 (by omega) 3 (by omega) z hz).symm, (hb 0 (by omega) 4 (by omega) z hz).symm, (hb 1 (by omega) 4 (by omega) z hz).symm, (hb 2 (by omega) 4 (by omega) z hz).symm, (hb 3 (by omega) 4 (by omega) z hz).symm, (hb 4 (by omega) 4 (by omega) z hz).symm⟩

theorem ra_theta {s : List U64} {A : Keccak.StateArray} (h : RA s A) : RA (sha3Theta s) (Keccak.theta A) := by
  obtain ⟨a0, a1, a2, a3, a4, a5, a6, a7, a8, a9, a10, a11, a12, a13, a14, a15, a16, a17, a18, a19, a20, a21, a22, a23, a24, rfl⟩ := list25 s h.len
  rw [theta_G, thetaG_list]
  apply ra_list
  intro z hz
  have hz' : (z + 63) % 64 < 64 := Nat.mod_lt _ (by omega)
  obtain ⟨h0, h1, h2, h3, h4, h5, h6, h7, h8, h9, h10, h11, h12, h13, h14, h15, h16, h17, h18, h19, h20, h21, h22, h23, h24⟩ := ra_lanes h z hz
  obtain ⟨k0, k1, k2, k3, k4, k5, k6, k7, k8, k9, k10, k11, k12, k13, k14, k15, k16, k17, k18, k19, k20, k21, k22, k23, k24⟩ := ra_lanes h _ hz'
  have e : ∀ (v w : U64), ((v <<< 1) ^^^ (v >>> 63) ^^^ w).getLsbD z = (v.getLsbD ((z + 63) % 64) ^^ w.getLsbD z) := by
    intro v w; rw [BitVec.getLsbD_xor, rot1_bit v z hz]
  have z0 : ∀ (v w : U64) (n : Nat), (0#64 ^^^ v ^^^ w).getLsbD n = (v.getLsbD n ^^ w.getLsbD n) := by
    intro v w n; rw [BitVec.getLsbD_xor, BitVec.getLsbD_xor]; simp
  have cx : ∀ (a b c d e : U64) (n : Nat), (0#64 ^^^ a ^^^ b ^^^ c ^^^ d ^^^ e).getLsbD n =
      (a.getLsbD n ^^ b.getLsbD n ^^ c.getLsbD n ^^ d.getLsbD n ^^ e.getLsbD n) := by
    intro a b c d e n; simp only [BitVec.getLsbD_xor, BitVec.getLsbD_zero, Bool.false_xor]
  have g : ∀ (a v w : U64), (a ^^^ ((v <<< 1) ^^^ (v >>> 63) ^^^ w)).getLsbD z =
      (a.getLsbD z ^^ (w.getLsbD z ^^ v.getLsbD ((z + 63) % 64))) := by
    intro a v w; rw [BitVec.getLsbD_xor, e, Bool.xor_comm (v.getLsbD _)]
  simp only [Keccak.theta, Nat.reduceAdd, Nat.reduceMod, h0, h1, h2, h3, h4, h5, h6, h7, h8, h9, h10, h11, h12, h13, h14, h15, h16, h17, h18, h19, h20, h21, h22, h23, h24, k0, k1, k2, k3, k4, k5, k6, k7, k8, k9, k10, k11, k12, k13, k14, k15, k16, k17, k18, k19, k20, k21, k22, k23, k24, g, cx,
    and_self]

theorem ra_rhoPi {s : List U64} {A : Keccak.StateArray} (h : RA s A) : RA (sha3RhoPi s) (Keccak.pi (Keccak.rho A)) := by
  obtain ⟨a0, a1, a2, a3, a4, a5, a6, a7, a8, a9, a10, a11, a12, a13, a14, a15, a16, a17, a18, a19, a20, a21, a22, a23, a24, rfl⟩ := list25 s h.len
  rw [rhoPi_G, rhoPiG_list]
  apply ra_list
  intro z hz
  have key : ∀ (v : U64) (l r : Nat), l < 64 → r = 64 - l → ((v <<< l) ||| (v >>> r)).getLsbD z = v.getLsbD ((z + (64 - l)) % 64) := by
    intro v l r hl hr; rw [hr]; exact rot_bit v l hl z hz
  have hb := h.bit
  have rr : ∀ (v : U64) (x y l r : Nat), x < 5 → y < 5 → [a0, a1, a2, a3, a4, a5, a6, a7, a8, a9, a10, a11, a12, a13, a14, a15, a16, a17, a18, a19, a20, a21, a22, a23, a24].getD (5 * y + x) 0#64 = v → Keccak.rhoOffset x y % 64 = l →
      l < 64 → r = 64 - l → ((v <<< l) ||| (v >>> r)).getLsbD z = Keccak.rho A x y z := by
    intro v x y l r hx hy hv ho hl hr
    rw [Keccak.rho, ho, ← hb x hx y hy _ (Nat.mod_lt _ (by omega)), hv, key v l r hl hr]
  refine ⟨?_, ?_, ?_, ?_, ?_, ?_, ?_, ?_, ?_, ?_, ?_, ?_, ?_, ?_, ?_, ?_, ?_, ?_, ?_, ?_, ?_, ?_, ?_, ?_, ?_⟩
  · show _ = Keccak.rho A 0 0 z
    rw [Keccak.rho, show Keccak.rhoOffset 0 0 % 64 = 0 by decide +kernel, show (z + (64 - 0)) % 64 = z by omega, ← hb 0 (by omega) 0 (by omega) z hz]
    rfl
  · exact rr _ 1 1 _ _ (by omega) (by omega) rfl (by decide +kernel) (by omega) (by omega)
  · exact rr _ 2 2 _ _ (by omega) (by omega) rfl (by decide +kernel) (by omega) (by omega)
  · exact rr _ 3 3 _ _ (by omega) (by omega) rfl (by decide +kernel) (by omega) (by omega)
  · exact rr _ 4 4 _ _ (by omega) (by omega) rfl (by decide +kernel) (by omega) (by omega)
  · exact rr _ 3 0 _ _ (by omega) (by omega) rfl (by decide +kernel) (by omega) (by omega)
  · exact rr _ 4 1 _ _ (by omega) (by omega) rfl (by decide +kernel) (by omega) (by omega)
  · exact rr _ 0 2 _ _ (by omega) (by omega) rfl (by decide +kernel) (by omega) (by omega)
  · exact rr _ 1 3 _ _ (by omega) (by omega) rfl (by decide +kernel) (by omega) (by omega)
  · exact rr _ 2 4 _ _ (by omega) (by omega) rfl (by decide +kernel) (by omega) (by omega)
  · exact rr _ 1 0 _ _ (by omega) (by omega) rfl (by decide +kernel) (by omega) (by omega)
  · exact rr _ 2 1 _ _ (by omega) (by omega) rfl (by decide +kernel) (by omega) (by omega)
  · exact rr _ 3 2 _ _ (by omega) (by omega) rfl (by decide +kernel) (by omega) (by omega)
  · exact rr _ 4 3 _ _ (by omega) (by omega) rfl (by decide +kernel) (by omega) (by omega)
  · exact rr _ 0 4 _ _ (by omega) (by omega) rfl (by decide +kernel) (by omega) (by omega)
  · exact rr _ 4 0 _ _ (by omega) (by omega) rfl (by decide +kernel) (by omega) (by omega)
  · exact rr _ 0 1 _ _ (by omega) (by omega) rfl (by decide +kernel) (by omega) (by omega)
  · exact rr _ 1 2 _ _ (by omega) (by omega) rfl (by decide +kernel) (by omega) (by omega)
  · exact rr _ 2 3 _ _ (by omega) (by omega) rfl (by decide +kernel) (by omega) (by omega)
  · exact rr _ 3 4 _ _ (by omega) (by omega) rfl (by decide +kernel) (by omega) (by omega)
  · exact rr _ 2 0 _ _ (by omega) (by omega) rfl (by decide +kernel) (by omega) (by omega)
  · exact rr _ 3 1 _ _ (by omega) (by omega) rfl (by decide +kernel) (by omega) (by omega)
  · exact rr _ 4 2 _ _ (by omega) (by omega) rfl (by decide +kernel) (by omega) (by omega)
  · exact rr _ 0 3 _ _ (by omega) (by omega) rfl (by decide +kernel) (by omega) (by omega)
  · exact rr _ 1 4 _ _ (by omega) (by omega) rfl (by decide +kernel) (by omega) (by omega)

theorem ra_chi {s : List U64} {A : Keccak.StateArray} (h : RA s A) : RA (sha3Chi s) (Keccak.chi A) := by
  obtain ⟨a0, a1, a2, a3, a4, a5, a6, a7, a8, a9, a10, a11, a12, a13, a14, a15, a16, a17, a18, a19, a20, a21, a22, a23, a24, rfl⟩ := list25 s h.len
  rw [chi_G, chiG_list]
  apply ra_list
  intro z hz
  obtain ⟨h0, h1, h2, h3, h4, h5, h6, h7, h8, h9, h10, h11, h12, h13, h14, h15, h16, h17, h18, h19, h20, h21, h22, h23, h24⟩ := ra_lanes h z hz
  have g : ∀ (a b c : U64), (a ^^^ (~~~ b &&& c)).getLsbD z = (a.getLsbD z ^^ ((b.getLsbD z ^^ true) && c.getLsbD z)) := by
    intro a b c
    rw [BitVec.getLsbD_xor, BitVec.getLsbD_and, BitVec.getLsbD_not]
    simp [hz]
  simp only [Keccak.chi, Nat.reduceAdd, Nat.reduceMod, h0, h1, h2, h3, h4, h5, h6, h7, h8, h9, h10, h11, h12, h13, h14, h15, h16, h17, h18, h19, h20, h21, h22, h23, h24, g, and_self]

theorem sha3RC_eq : ∀ ir < 24, ∀ z < 64, (sha3RC.getD ir 0#64).getLsbD z = Keccak.RC ir z := by decide +kernel

theorem ra_iota {s : List U64} {A : Keccak.StateArray} (h : RA s A) {ir : Nat} (hir : ir < 24) :
    RA (xorAt s 0 (sha3RC.getD ir 0#64)) (Keccak.iota ir A) := by
  obtain ⟨a0, a1, a2, a3, a4, a5, a6, a7, a8, a9, a10, a11, a12, a13, a14, a15, a16, a17, a18, a19, a20, a21, a22, a23, a24, rfl⟩ := list25 s h.len
  have : xorAt [a0, a1, a2, a3, a4, a5, a6, a7, a8, a9, a10, a11, a12, a13, a14, a15, a16, a17, a18, a19, a20, a21, a22, a23, a24] 0 (sha3RC.getD ir 0#64) = [a0 ^^^ sha3RC.getD ir 0#64, a1, a2, a3, a4, a5, a6, a7, a8, a9, a10, a11, a12, a13, a14, a15, a16, a17, a18, a19, a20, a21, a22, a23, a24] := rfl
  rw [this]
  apply ra_list
  intro z hz
  obtain ⟨h0, h1, h2, h3, h4, h5, h6, h7, h8, h9, h10, h11, h12, h13, h14, h15, h16, h17, h18, h19, h20, h21, h22, h23, h24⟩ := ra_lanes h z hz
  refine ⟨?_, ?_, ?_, ?_, ?_, ?_, ?_, ?_, ?_, ?_, ?_, ?_, ?_, ?_, ?_, ?_, ?_, ?_, ?_, ?_, ?_, ?_, ?_, ?_, ?_⟩
  · rw [BitVec.getLsbD_xor, sha3RC_eq ir hir z hz, Keccak.iota, if_pos ⟨rfl, rfl⟩, h0]
  · exact h1.symm
  · exact h2.symm
  · exact h3.symm
  · exact h4.symm
  · exact h5.symm
  · exact h6.symm
  · exact h7.symm
  · exact h8.symm
  · exact h9.symm
  · exact h10.symm
  · exact h11.symm
  · exact h12.symm
  · exact h13.symm
  · exact h14.symm
  · exact h15.symm
  · exact h16.symm
  · exact h17.symm
  · exact h18.symm
  · exact h19.symm
  · exact h20.symm
  · exact h21.symm
  · exact h22.symm
  · exact h23.symm
  · exact h24.symm

theorem ra_process {s : List U64} {A : Keccak.StateArray} (h : RA s A) :
    RA (sha3Process s) ((List.range 24).foldl Keccak.Rnd A) := by
  have : ∀ n ≤ 24, RA ((List.range n).foldl (fun s round => xorAt (sha3Chi (sha3RhoPi (sha3Theta s))) 0 (sha3RC.getD round 0#64)) s)
      ((List.range n).foldl Keccak.Rnd A) := by
    intro n
    induction n with
    | zero => intro _; exact h
    | succ n ih =>
      intro hn
      rw [List.range_succ, List.foldl_append, List.foldl_append, List.foldl_cons, List.foldl_cons, List.foldl_nil, List.foldl_nil,
        Keccak.Rnd]
      exact ra_iota (ra_chi (ra_rhoPi (ra_theta (ih (by omega))))) (by omega)
  rw [sha3Process]
  exact this 24 (le_refl _)

end Verif.Proof
