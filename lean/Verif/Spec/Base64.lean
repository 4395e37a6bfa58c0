import Verif.Spec.BlockHash

/-! RFC 4648 base64, independent of the model. -/

namespace Verif.Spec

/-- The 64 digits given the last two (RFC 4648 tables 1 and 2; RFC 2152 style with a comma). -/
def alphabet (c62 c63 : Char) : List Byte :=
  ascii "ABCDEFGHIJKLMNOPQRSTUVWXYZabcdefghijklmnopqrstuvwxyz0123456789" ++ [BitVec.ofNat 8 c62.toNat, BitVec.ofNat 8 c63.toNat]

/-- The 6-bit groups of a byte string, the last group padded with zero bits (RFC 4648 section 4). -/
def sextets : List Byte → List Nat
  | a :: b :: c :: r =>
    let n := a.toNat * 65536 + b.toNat * 256 + c.toNat
    [n / 262144, n / 4096 % 64, n / 64 % 64, n % 64] ++ sextets r
  | [a, b] =>
    let n := a.toNat * 256 + b.toNat
    [n / 1024, n / 16 % 64, n % 16 * 4]
  | [a] => [a.toNat / 4, a.toNat % 4 * 16]
  | [] => []

/-- Number of `=` signs. -/
def padCount (len : Nat) : Nat := (3 - len % 3) % 3

/-- Encoding on one line. -/
def base64Text (alpha : List Byte) (omitEqs : Bool) (data : List Byte) : List Byte :=
  (sextets data).map (fun s => alpha.getD s 0#8) ++ (if omitEqs then [] else List.replicate (padCount data.length) 0x3d#8)

/-- Line feed after every 76 characters of `t` (none after an incomplete last line). -/
def breakLines (t : List Byte) : List Byte :=
  (blocks 76 t).flatMap (fun l => l ++ [0x0a#8]) ++ t.drop (t.length / 76 * 76)

/-- The text of the complete three-byte groups broken into lines, then the text of the rest, then one line feed. -/
def base64Lines (alpha : List Byte) (omitEqs : Bool) (data : List Byte) : List Byte :=
  let k := data.length / 3 * 3
  breakLines (base64Text alpha true (data.take k)) ++ base64Text alpha omitEqs (data.drop k) ++ [0x0a#8]

/-- Value of a character accepted in any of the three alphabets. -/
def sextetOf (c : Byte) : Option Nat :=
  let n := c.toNat
  if 'A'.toNat ≤ n ∧ n ≤ 'Z'.toNat then some (n - 'A'.toNat)
  else if 'a'.toNat ≤ n ∧ n ≤ 'z'.toNat then some (n - 'a'.toNat + 26)
  else if '0'.toNat ≤ n ∧ n ≤ '9'.toNat then some (n - '0'.toNat + 52)
  else if n = '+'.toNat ∨ n = '-'.toNat then some 62
  else if n = '/'.toNat ∨ n = '_'.toNat ∨ n = ','.toNat then some 63
  else none

/-- Bytes from 6-bit groups; left-over bits that do not fill a byte are dropped. -/
def unsextets : List Nat → List Byte
  | a :: b :: c :: d :: r =>
    let n := a * 262144 + b * 4096 + c * 64 + d
    [BitVec.ofNat 8 (n / 65536), BitVec.ofNat 8 (n / 256), BitVec.ofNat 8 n] ++ unsextets r
  | [a, b, c] => [BitVec.ofNat 8 (a * 4 + b / 16), BitVec.ofNat 8 (b * 16 + c / 4)]
  | [a, b] => [BitVec.ofNat 8 (a * 4 + b / 16)]
  | [_] => []
  | [] => []

end Verif.Spec
