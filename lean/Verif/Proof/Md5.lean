import Verif.Proof.Sha2
import Verif.Proof.SinTable

/-! The MD5 block function of the model refines RFC 1321. -/

namespace Verif.Proof
open Verif.Model

/-- The code rotates the roles of its variables instead of naming registers. -/
def md5View (n : Nat) (h : Md5H) : Spec.Md5Regs :=
  if n % 4 = 0 then ⟨h.1, h.2.1, h.2.2.1, h.2.2.2⟩
  else if n % 4 = 1 then ⟨h.2.1, h.2.2.1, h.2.2.2, h.1⟩
  else if n % 4 = 2 then ⟨h.2.2.1, h.2.2.2, h.1, h.2.1⟩
  else ⟨h.2.2.2, h.1, h.2.1, h.2.2.1⟩

theorem md5_index : ∀ i < 64, Spec.md5k.getD i 0 =
    (if i < 16 then i else if i < 32 then (5 * i + 1) % 16 else if i < 48 then (3 * i + 5) % 16 else (7 * i) % 16) := by
  decide +kernel

theorem md5_shift : ∀ i < 64, Model.md5s.getD i 0 = Spec.md5s i ∧ 0 < Spec.md5s i ∧ Spec.md5s i < 32 := by
  decide +kernel

theorem md5Step_eq {chunk : List Byte} (hc : chunk.length = 64) {i : Nat} (hi : i < 64) (a b c d : U32) :
    md5Step chunk i (a, b, c, d) = (d, Spec.md5Op chunk i a b c d, b, c) := by
  obtain ⟨hs, hs0, hs1⟩ := md5_shift i hi
  simp only [md5Step, Spec.md5Op]
  rw [hs, ← md5T_eq hi, md5_index i hi]
  have key : ∀ (f f' : U32) (g : Nat), g < 16 → f = f' →
      (b + rotate (f + a + Spec.md5T (i + 1) + (byte32 chunk (4 * g) ||| (byte32 chunk (4 * g + 1) <<< 8) |||
        (byte32 chunk (4 * g + 2) <<< 16) ||| (byte32 chunk (4 * g + 3) <<< 24))) (Spec.md5s i)) =
      b + (a + f' + Spec.md5X chunk g + Spec.md5T (i + 1)).rotateLeft (Spec.md5s i) := by
    intro f f' g hg hf
    rw [leWord4 (by omega), rotate_eq _ hs0 hs1, hf, add_swap, BitVec.add_comm f' a]
  by_cases h1 : i < 16
  · simp only [h1, if_true]
    rw [key _ _ _ h1 rfl]; rfl
  · by_cases h2 : i < 32
    · simp only [h1, h2, if_true, if_false]
      rw [key _ (Spec.md5G b c d) _ (Nat.mod_lt _ (by omega)) (by
        simp only [Spec.md5G]; rw [BitVec.and_comm d b, BitVec.and_comm (~~~d) c])]
    · by_cases h3 : i < 48
      · simp only [h1, h2, h3, if_true, if_false]
        rw [key _ (Spec.md5H b c d) _ (Nat.mod_lt _ (by omega)) (by rfl)]
      · simp only [h1, h2, h3, if_false]
        rw [key _ (Spec.md5I b c d) _ (Nat.mod_lt _ (by omega)) (by rfl)]

theorem md5Ops_eq {chunk : List Byte} (hc : chunk.length = 64) (h : Md5H) : ∀ n ≤ 64,
    md5View n ((List.range n).foldl (fun st i => md5Step chunk i st) h) = Spec.md5Ops chunk (md5View 0 h) n := by
  intro n
  induction n with
  | zero => intro _; rfl
  | succ n ih =>
    intro hn
    rw [List.range_succ, List.foldl_append, List.foldl_cons, List.foldl_nil, Spec.md5Ops, ← ih (by omega)]
    generalize (List.range n).foldl (fun st i => md5Step chunk i st) h = st
    obtain ⟨a, b, c, d⟩ := st
    rw [md5Step_eq hc (by omega)]
    have h4 : n % 4 = 0 ∨ n % 4 = 1 ∨ n % 4 = 2 ∨ n % 4 = 3 := by omega
    rcases h4 with h4 | h4 | h4 | h4
    · simp [md5View, Spec.md5Do, h4, show (n + 1) % 4 = 1 by omega]
    · simp [md5View, Spec.md5Do, h4, show (n + 1) % 4 = 2 by omega]
    · simp [md5View, Spec.md5Do, h4, show (n + 1) % 4 = 3 by omega]
    · simp [md5View, Spec.md5Do, h4, show (n + 1) % 4 = 0 by omega]

theorem md5Compress_eq (h : Md5H) (chunk : List Byte) (hc : chunk.length = 64) :
    md5View 0 (Model.md5Compress h chunk) = Spec.md5Compress (md5View 0 h) chunk := by
  unfold Model.md5Compress Spec.md5Compress
  have := md5Ops_eq hc h 64 (le_refl _)
  simp only [← this]
  generalize (List.range 64).foldl (fun st i => md5Step chunk i st) h = st
  simp [md5View]

theorem md5Out_eq (h : Md5H) : md5Out h = [(md5View 0 h).A, (md5View 0 h).B, (md5View 0 h).C, (md5View 0 h).D].flatMap
    (fun x => Spec.leBytes 4 x.toNat) := by
  simp only [md5Out, md5View, Nat.zero_mod, if_true, outLE32_eq, List.flatMap_cons, List.flatMap_nil]

end Verif.Proof
