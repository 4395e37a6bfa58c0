import Verif.Base.Mem

/-! Model of include/caligo/Asn1.h. -/

namespace Verif.Model

/-- `std::span<const uint8_t>`: `rest` holds the bytes from the start of the span to the end of the array it points into, `size` is its
length. `read` makes spans by pointer arithmetic, so a span may be longer than the span it was cut from; it is undefined behaviour only when it
leaves the array. -/
structure Span where
  rest : List Byte
  size : Nat
deriving DecidableEq, Repr

/-- The bytes a span designates. -/
def Span.bytes (s : Span) : List Byte := s.rest.take s.size

/-- A span over a whole array or vector. -/
def spanOf (v : List Byte) : Span := ⟨v, v.length⟩

/-- `span[i]`; an index that is not below `size()` violates the precondition of `operator[]`. -/
def Span.get (s : Span) (i : Nat) : Out Byte := if i < s.size then rd s.rest i else .error .ub

/-- `subspan(k)`; `k > size()` violates its precondition. -/
def Span.drop (s : Span) (k : Nat) : Out Span := if k ≤ s.size then .ok ⟨s.rest.drop k, s.size - k⟩ else .error .ub

/-- `asn1_view` : include/caligo/Asn1.h:30-35 -/
structure View where
  data : Span
  offset : Nat
deriving DecidableEq, Repr

/-- constructor: include/caligo/Asn1.h:33-35 -/
def viewOf (s : Span) : View := ⟨s, 0⟩

/-- The loop over the length octets: include/caligo/Asn1.h:42-44. `size` is a `size_t`; the result is size and offset. -/
def lenLoop (d : Span) : Nat → Nat → Nat → Out (Nat × Nat)
  | 0, size, offset => .ok (size, offset)
  | k + 1, size, offset => do
    let b ← d.get offset
    lenLoop d k ((size * 256 % 2 ^ 64 + b.toNat) % 2 ^ 64) (offset + 1)

/-- The size of the element and the offset behind the length octets, given the first length octet: include/caligo/Asn1.h:38-45 -/
def readLen (d : Span) (l : Byte) (offset : Nat) : Out (Nat × Nat) :=
  if l &&& 0x80#8 ≠ 0#8 then lenLoop d (l &&& 0x7F#8).toNat 0 offset else .ok (l.toNat, offset)

/-- `read` : include/caligo/Asn1.h:36-49. `asn1_id` is an enumeration of underlying type `int`, so the cast keeps the byte. Forming a pointer
behind the end of the array is undefined behaviour. -/
def View.read (v : View) : Out ((Byte × Span) × View) := do
  let id ← v.data.get v.offset
  let l ← v.data.get (v.offset + 1)
  let p ← readLen v.data l (v.offset + 2)
  if v.data.rest.length < p.2 + p.1 then .error .ub
  else .ok ((id, ⟨v.data.rest.drop p.2, p.1⟩), ⟨v.data, p.2 + p.1⟩)

/-- `peek` : include/caligo/Asn1.h:50-52 -/
def View.peek (v : View) : Out Byte := v.data.get v.offset

/-- `empty` : include/caligo/Asn1.h:53-55 -/
def View.empty (v : View) : Bool := decide (v.offset = v.data.size)

end Verif.Model
