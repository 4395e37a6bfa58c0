import Verif.Base.Basic

/-! CRC-32/ISO-HDLC, bit by bit, independent of the model: the register holds the remainder with its coefficients
reflected, each message bit (least significant bit of each byte first) is one division step by the polynomial
x^32 + x^26 + x^23 + x^22 + x^16 + x^12 + x^11 + x^10 + x^8 + x^7 + x^5 + x^4 + x^2 + x + 1. -/

namespace Verif.Spec

/-- Exponents of the generator polynomial below 32. -/
def crcExponents : List Nat := [26, 23, 22, 16, 12, 11, 10, 8, 7, 5, 4, 2, 1, 0]

/-- The generator without its leading term, reflected: bit 31 holds the coefficient of x^0, bit 0 that of x^31. -/
def crcPoly : BitVec 32 := BitVec.ofNat 32 ((crcExponents.map (fun e => 2 ^ (31 - e))).sum)

/-- One division step on the reflected register. -/
def crcBit (h : BitVec 32) (b : Bool) : BitVec 32 :=
  if h.getLsbD 0 = b then h >>> 1 else (h >>> 1) ^^^ crcPoly

/-- The bits of a message, least significant bit of each byte first. -/
def messageBits (m : List Byte) : List Bool := m.flatMap (fun b => (List.range 8).map (fun i => b.getLsbD i))

/-- The 32-bit CRC of a bit string: initial register all ones, final complement. -/
def crcOfBits (bits : List Bool) : BitVec 32 := ~~~ (bits.foldl crcBit (BitVec.allOnes 32))

/-- The CRC of a byte string as four bytes, most significant first. -/
def crc32 (m : List Byte) : List Byte :=
  let c := (crcOfBits (messageBits m)).toNat
  [BitVec.ofNat 8 (c / 2 ^ 24), BitVec.ofNat 8 (c / 2 ^ 16), BitVec.ofNat 8 (c / 2 ^ 8), BitVec.ofNat 8 c]

end Verif.Spec
