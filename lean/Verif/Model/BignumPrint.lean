import Verif.Model.Bignum
import Verif.Base.Mem

/-! Model of `to_string` for bignums at the level of the character buffer. -/

namespace Verif.Model

/-- `strlen(buffer)`; without a terminator in the buffer it reads outside. -/
def strlen (buffer : List Byte) : Out Nat :=
  match buffer.findIdx? (fun b => decide (b = 0#8)) with
  | some i => .ok i
  | none => .error .ub

/-- The writes of `sprintf(buffer + start, ...)` producing the characters `s`: the characters and the terminator. -/
def sprintfAt (buffer : List Byte) (start : Nat) (s : List Byte) : Out (List Byte) :=
  loop (s.length + 1) buffer (fun buffer i => wr buffer (start + i) (s.getD i 0#8))

/-- The body of the loop: include/caligo/bignum.h:235-237 -/
def printWord (v : List U32) (buffer : List Byte) (n : Nat) : Out (List Byte) := do
  let len ← strlen buffer
  let w ← rd v (v.length - n - 1)
  sprintfAt buffer len (fmt08X w)

/-- `to_string` : include/caligo/bignum.h:232-240. `garbage` is the uninitialised content of `char buffer[10*N]`. -/
def bnPrint (garbage : List Byte) (v : List U32) : Out (List Byte) := do
  let buffer ← wr garbage 0 0#8
  let buffer ← loop v.length buffer (printWord v)
  let len ← strlen buffer
  let buffer ← wr buffer ((len + 2 ^ 64 - 1) % 2 ^ 64) 0#8
  let len ← strlen buffer
  return buffer.take len

end Verif.Model
