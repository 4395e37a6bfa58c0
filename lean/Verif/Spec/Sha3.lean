import Verif.Spec.BlockHash

/-! FIPS 202, at the level of bits, written from the standard, independent of the model. -/

namespace Verif.Spec.Keccak

/-- State array `A[x,y,z]`, `x, y < 5`, `z < 64` (section 3.1). -/
abbrev StateArray := Nat → Nat → Nat → Bool

/-- Section 3.2.1 -/
def theta (A : StateArray) : StateArray := fun x y z =>
  let C x z := A x 0 z ^^ A x 1 z ^^ A x 2 z ^^ A x 3 z ^^ A x 4 z
  A x y z ^^ (C ((x + 4) % 5) z ^^ C ((x + 1) % 5) ((z + 63) % 64))

/-- The walk `(x, y) := (y, (2x + 3y) mod 5)` from `(1, 0)` of section 3.2.2, step 3. -/
def walk : Nat → Nat × Nat
  | 0 => (1, 0)
  | t + 1 => ((walk t).2, (2 * (walk t).1 + 3 * (walk t).2) % 5)

/-- Offset `(t+1)(t+2)/2` of the lane reached at step `t` of the walk; lane `(0,0)` has offset 0. -/
def rhoOffset (x y : Nat) : Nat :=
  match (List.range 24).find? (fun t => walk t == (x, y)) with
  | some t => (t + 1) * (t + 2) / 2
  | none => 0

/-- Section 3.2.2: `A'[x,y,z] = A[x,y,(z - offset) mod 64]`. -/
def rho (A : StateArray) : StateArray := fun x y z => A x y ((z + (64 - rhoOffset x y % 64)) % 64)

/-- Section 3.2.3 -/
def pi (A : StateArray) : StateArray := fun x y z => A ((x + 3 * y) % 5) x z

/-- Section 3.2.4 -/
def chi (A : StateArray) : StateArray := fun x y z => A x y z ^^ ((A ((x + 1) % 5) y z ^^ true) && A ((x + 2) % 5) y z)

/-- One step of the LFSR of Algorithm 5, on an 8-bit register given as `R[0], R[1], ...`. -/
def lfsr (R : List Bool) : List Bool :=
  let R := false :: R
  let g i := R.getD i false
  [g 0 ^^ g 8, g 1, g 2, g 3, g 4 ^^ g 8, g 5 ^^ g 8, g 6 ^^ g 8, g 7]

/-- Algorithm 5 -/
def rc (t : Nat) : Bool :=
  ((lfsr^[t % 255]) [true, false, false, false, false, false, false, false]).getD 0 false

/-- Algorithm 6, steps 2 and 3: `RC[2^j - 1] = rc(j + 7 i_r)` for `j = 0..6`, all other bits are 0. -/
def RC (ir z : Nat) : Bool := (List.range 7).any (fun j => z == 2 ^ j - 1 && rc (j + 7 * ir))

/-- Section 3.2.5 -/
def iota (ir : Nat) (A : StateArray) : StateArray := fun x y z =>
  if x = 0 ∧ y = 0 then A x y z ^^ RC ir z else A x y z

/-- Section 3.3 -/
def Rnd (A : StateArray) (ir : Nat) : StateArray := iota ir (chi (pi (rho (theta A))))

/-- A bit string of length 1600, as a function from positions. -/
abbrev BitString := Nat → Bool

/-- `KECCAK-p[1600, 24]`, with the string/array conversions of sections 3.1.2 and 3.1.3. -/
def f (S : BitString) : BitString :=
  let A := (List.range 24).foldl Rnd (fun x y z => S (64 * (5 * y + x) + z))
  fun j => A (j / 64 % 5) (j / 320) (j % 64)

/-- Section 5.1, `pad10*1(x, m)` : `1 0^j 1` with `j = (-m-2) mod x`. -/
def pad101 (x m : Nat) : List Bool := true :: (List.replicate ((x - (m + 2) % x) % x) false ++ [true])

/-- Section 4: absorb the `r`-bit blocks of `N || pad`, then squeeze: output bit `j` is bit `j mod r` of the state after
`j / r` further permutations. -/
def sponge (r : Nat) (N : List Bool) (d : Nat) : List Bool :=
  let S := (blocks r (N ++ pad101 r N.length)).foldl (fun (S : BitString) P => f (fun i => S i ^^ P.getD i false)) (fun _ => false)
  (List.range d).map (fun j => (f^[j / r]) S (j % r))

/-- Bits of a byte string, least significant bit of each byte first (appendix B.1). -/
def bitsOf (m : List Byte) : List Bool := m.flatMap (fun b => (List.range 8).map (fun i => b.getLsbD i))

/-- Section 6.1: `SHA3-d(M) = KECCAK[2d](M || 01, d)`, as a bit string. -/
def sha3Bits (d : Nat) (m : List Byte) : List Bool := sponge (1600 - 2 * d) (bitsOf m ++ [false, true]) d

end Verif.Spec.Keccak
