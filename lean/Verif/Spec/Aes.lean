import Verif.Base.Basic

/-! FIPS 197 (Advanced Encryption Standard), written from the standard and independently of the model. -/

namespace Verif.Spec.Aes

/-! ### Section 4: GF(2^8) -/

/-- Product of two polynomials over GF(2), coefficients in the bits of a natural number. -/
def polyMul (a b : Nat) : Nat := (List.range 8).foldl (fun acc i => if b.testBit i then acc ^^^ (a <<< i) else acc) 0
/-- Remainder modulo `m(x) = x^8 + x^4 + x^3 + x + 1` of a polynomial of degree at most 14. -/
def polyMod (p : Nat) : Nat := [14, 13, 12, 11, 10, 9, 8].foldl (fun p k => if p.testBit k then p ^^^ (0x11b <<< (k - 8)) else p) p
/-- `a • b` (section 4.2) -/
def gmul (a b : Byte) : Byte := BitVec.ofNat 8 (polyMod (polyMul a.toNat b.toNat))
/-- Powers. -/
def gpow (a : Byte) : Nat → Byte
  | 0 => 1#8
  | n + 1 => gmul a (gpow a n)
/-- `a^(2^n)` -/
def gsq (a : Byte) : Nat → Byte
  | 0 => a
  | n + 1 => gmul (gsq a n) (gsq a n)
/-- The multiplicative inverse, with 0 mapped to itself: `a^254 = a^2 a^4 ... a^128` (`gfInv_spec` in `Verif.Proof.Aes` states that it is the
inverse). -/
def gfInv (a : Byte) : Byte :=
  gmul (gsq a 1) (gmul (gsq a 2) (gmul (gsq a 3) (gmul (gsq a 4) (gmul (gsq a 5) (gmul (gsq a 6) (gsq a 7))))))

/-! ### Section 5.1.1: the S-box -/

/-- The affine transformation (5.1): `b'_i = b_i + b_(i+4) + b_(i+5) + b_(i+6) + b_(i+7) + c_i`, `c = {63}`. -/
def affine (b : Byte) : Byte :=
  BitVec.ofNat 8 ((List.range 8).foldl (fun acc i =>
    acc + (if (b.getLsbD i ^^ b.getLsbD ((i + 4) % 8) ^^ b.getLsbD ((i + 5) % 8) ^^ b.getLsbD ((i + 6) % 8) ^^ b.getLsbD ((i + 7) % 8) ^^
      (0x63#8).getLsbD i) then 2 ^ i else 0)) 0)
/-- The S-box. -/
def sbox (b : Byte) : Byte := affine (gfInv b)

/-! ### Section 3.4: the state. `s r c` is row `r`, column `c`. -/

abbrev State := Nat → Nat → Byte
/-- (3.3) -/
def toState (inp : List Byte) : State := fun r c => inp.getD (r + 4 * c) 0#8
/-- (3.4) -/
def output (s : State) : List Byte := (List.range 16).map (fun i => s (i % 4) (i / 4))

/-! ### Section 5.1: Cipher -/

def subBytes (s : State) : State := fun r c => sbox (s r c)
/-- (5.3) -/
def shiftRows (s : State) : State := fun r c => s r ((c + r) % 4)
/-- (5.6) -/
def mixColumns (s : State) : State := fun r c =>
  gmul 0x02#8 (s r c) ^^^ gmul 0x03#8 (s ((r + 1) % 4) c) ^^^ s ((r + 2) % 4) c ^^^ s ((r + 3) % 4) c
/-- (5.7); a word is the list of its four bytes -/
def addRoundKey (s : State) (w : List (List Byte)) (round : Nat) : State := fun r c => s r c ^^^ (w.getD (4 * round + c) []).getD r 0#8

/-- Figure 5 -/
def cipher (nr : Nat) (w : List (List Byte)) (inp : List Byte) : List Byte :=
  let s := addRoundKey (toState inp) w 0
  let s := (List.range' 1 (nr - 1)).foldl (fun s round => addRoundKey (mixColumns (shiftRows (subBytes s))) w round) s
  output (addRoundKey (shiftRows (subBytes s)) w nr)

/-! ### Section 5.2: Key expansion -/

def subWord (w : List Byte) : List Byte := w.map sbox
def rotWord : List Byte → List Byte
  | a :: r => r ++ [a]
  | [] => []
def xorWord (a b : List Byte) : List Byte := List.zipWith (· ^^^ ·) a b
/-- `Rcon[i] = [x^(i-1), {00}, {00}, {00}]` -/
def rcon (i : Nat) : List Byte := [gpow 0x02#8 (i - 1), 0#8, 0#8, 0#8]

/-- One step of figure 11. -/
def expandStep (nk : Nat) (w : List (List Byte)) (i : Nat) : List (List Byte) :=
  let temp := w.getD (i - 1) []
  let temp := if i % nk = 0 then xorWord (subWord (rotWord temp)) (rcon (i / nk))
    else if nk > 6 ∧ i % nk = 4 then subWord temp else temp
  w ++ [xorWord (w.getD (i - nk) []) temp]

/-- Figure 11: key expansion for `nk` key words and `nr` rounds. -/
def keyExpansion (nk nr : Nat) (key : List Byte) : List (List Byte) :=
  let w := (List.range nk).map (fun i => [key.getD (4 * i) 0#8, key.getD (4 * i + 1) 0#8, key.getD (4 * i + 2) 0#8, key.getD (4 * i + 3) 0#8])
  (List.range' nk (4 * (nr + 1) - nk)).foldl (expandStep nk) w

/-- AES-128 (figure 4: Nk = 4, Nr = 10) -/
def aes128 (key inp : List Byte) : List Byte := cipher 10 (keyExpansion 4 10 key) inp
/-- AES-256 (figure 4: Nk = 8, Nr = 14) -/
def aes256 (key inp : List Byte) : List Byte := cipher 14 (keyExpansion 8 14 key) inp

end Verif.Spec.Aes
