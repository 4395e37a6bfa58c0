import Mathlib.Data.List.Basic
import Mathlib.Tactic.Ring
import Mathlib.Tactic.Linarith

/-! Common vocabulary of the model: bytes, machine words, outcomes. No model content. -/

namespace Verif

/-- `uint8_t` -/
abbrev Byte := BitVec 8
/-- `uint16_t` -/
abbrev U16 := BitVec 16
/-- `uint32_t` -/
abbrev U32 := BitVec 32
/-- `uint64_t`, and `size_t` on the only supported platform x86-64 -/
abbrev U64 := BitVec 64

/-- The ways a C++ call can fail to return normally. -/
inductive Fault where
  /-- undefined behaviour: out-of-bounds access, null dereference, failed `assert` precondition -/
  | ub
  /-- a C++ exception leaves the function -/
  | thrown
  /-- the loop never terminates (or only by exhausting memory) -/
  | diverges
deriving DecidableEq, Repr

/-- Outcome of a call. -/
abbrev Out (α : Type) := Except Fault α

instance {ε α : Type} [DecidableEq ε] [DecidableEq α] : DecidableEq (Except ε α)
  | .ok a, .ok b => if h : a = b then isTrue (h ▸ rfl) else isFalse (fun e => h (Except.ok.inj e))
  | .error a, .error b => if h : a = b then isTrue (h ▸ rfl) else isFalse (fun e => h (Except.error.inj e))
  | .ok _, .error _ => isFalse (fun e => nomatch e)
  | .error _, .ok _ => isFalse (fun e => nomatch e)

/-- `memcpy(dst + off, src.data(), src.size())` for an array `dst`. -/
def overwrite {α : Type} (dst : List α) (off : Nat) (src : List α) : List α :=
  dst.take off ++ src ++ dst.drop (off + src.length)

theorem overwrite_length {α : Type} {dst : List α} {off : Nat} {src : List α}
    (h : off + src.length ≤ dst.length) : (overwrite dst off src).length = dst.length := by
  simp only [overwrite, List.length_append, List.length_take, List.length_drop]
  omega

theorem overwrite_take {α : Type} {dst : List α} {off : Nat} {src : List α}
    (h : off + src.length ≤ dst.length) :
    (overwrite dst off src).take (off + src.length) = dst.take off ++ src := by
  have h1 : (dst.take off ++ src).length = off + src.length := by
    simp only [List.length_append, List.length_take]; omega
  rw [overwrite, ← h1, List.take_left]

/-- Bytes of a little-endian 32-bit word. -/
def le32 (w : U32) : List Byte :=
  [w.extractLsb' 0 8, w.extractLsb' 8 8, w.extractLsb' 16 8, w.extractLsb' 24 8]

/-- Hex digits helper used only in `example`s: parse a hex string to bytes. -/
def hexVal (c : Char) : Nat :=
  if '0' ≤ c ∧ c ≤ '9' then c.toNat - '0'.toNat
  else if 'a' ≤ c ∧ c ≤ 'f' then c.toNat - 'a'.toNat + 10
  else if 'A' ≤ c ∧ c ≤ 'F' then c.toNat - 'A'.toNat + 10 else 0

def unhexL : List Char → List Byte
  | a :: b :: r => BitVec.ofNat 8 (16 * hexVal a + hexVal b) :: unhexL r
  | _ => []

/-- Bytes written in hexadecimal. -/
def unhex (s : String) : List Byte := unhexL s.toList

/-- Bytes of an ASCII string. -/
def ascii (s : String) : List Byte := s.toList.map (fun c => BitVec.ofNat 8 c.toNat)

end Verif
