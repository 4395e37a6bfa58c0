import Verif.Base.Basic

/-! Specification vocabulary for Merkle-Damgaard hashes (RFC 1321 section 3, FIPS 180-4 section 5). -/

namespace Verif.Spec

/-- The complete `B`-element blocks of a message, in order (a trailing incomplete block is left out). -/
def blocks {α : Type} (B : Nat) (m : List α) : List (List α) :=
  if 0 < B ∧ B ≤ m.length then m.take B :: blocks B (m.drop B) else []
termination_by m.length
decreasing_by
  simp only [List.length_drop]; omega

/-- `n` as exactly `k` bytes, most significant byte first. -/
def beBytes (k n : Nat) : List Byte :=
  (List.range k).map (fun i => BitVec.ofNat 8 (n / 256 ^ (k - 1 - i)))

/-- `n` as exactly `k` bytes, least significant byte first. -/
def leBytes (k n : Nat) : List Byte :=
  (List.range k).map (fun i => BitVec.ofNat 8 (n / 256 ^ i))

/-- Padding of a byte message (FIPS 180-4 5.1, RFC 1321 3.1/3.2): one `1` bit, i.e. byte 0x80, then the smallest number
of zero bytes that makes the total length, together with the length field, a multiple of the block size, then the
length of the message in bits as the given `L`-byte field. -/
def pad (B L : Nat) (field : Nat → List Byte) (m : List Byte) : List Byte :=
  m ++ [0x80#8] ++ List.replicate ((B - (m.length + 1 + L) % B) % B) 0#8 ++ field (8 * m.length)

/-- Merkle-Damgaard iteration. -/
def iterate {σ : Type} (compress : σ → List Byte → σ) (iv : σ) (bs : List (List Byte)) : σ :=
  bs.foldl compress iv

end Verif.Spec
