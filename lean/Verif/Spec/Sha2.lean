import Verif.Spec.BlockHash
import Verif.Spec.Roots

/-! FIPS 180-4: SHA-1, SHA-224, SHA-256, SHA-384, SHA-512. Written from the standard, independent of the model. -/

namespace Verif.Spec

/-- Value of a byte string, most significant byte first. -/
def beOctets (l : List Byte) : Nat := l.foldl (fun a b => 256 * a + b.toNat) 0

/-- Word `t` of a block parsed into `8*k`-bit big-endian words (section 5.2). -/
def beWord (k : Nat) (block : List Byte) (t : Nat) : BitVec (8 * k) :=
  BitVec.ofNat (8 * k) (beOctets ((block.drop (k * t)).take k))

section functions
variable {w : Nat} (x y z : BitVec w)
/-- section 4.1 -/
def Ch : BitVec w := (x &&& y) ^^^ (~~~x &&& z)
/-- section 4.1 -/
def Parity : BitVec w := x ^^^ y ^^^ z
/-- section 4.1 -/
def Maj : BitVec w := (x &&& y) ^^^ (x &&& z) ^^^ (y &&& z)
end functions

/-- What distinguishes the 32-bit from the 64-bit SHA-2 family: sections 4.1.2, 4.1.3, 4.2.2, 4.2.3. -/
structure Sha2Family where
  /-- bytes per word -/
  k : Nat
  rounds : Nat
  bigSigma0 : BitVec (8 * k) → BitVec (8 * k)
  bigSigma1 : BitVec (8 * k) → BitVec (8 * k)
  sigma0 : BitVec (8 * k) → BitVec (8 * k)
  sigma1 : BitVec (8 * k) → BitVec (8 * k)

/-- Section 4.1.2 -/
def family32 : Sha2Family where
  k := 4
  rounds := 64
  bigSigma0 x := x.rotateRight 2 ^^^ x.rotateRight 13 ^^^ x.rotateRight 22
  bigSigma1 x := x.rotateRight 6 ^^^ x.rotateRight 11 ^^^ x.rotateRight 25
  sigma0 x := x.rotateRight 7 ^^^ x.rotateRight 18 ^^^ (x >>> 3)
  sigma1 x := x.rotateRight 17 ^^^ x.rotateRight 19 ^^^ (x >>> 10)

/-- Section 4.1.3 -/
def family64 : Sha2Family where
  k := 8
  rounds := 80
  bigSigma0 x := x.rotateRight 28 ^^^ x.rotateRight 34 ^^^ x.rotateRight 39
  bigSigma1 x := x.rotateRight 14 ^^^ x.rotateRight 18 ^^^ x.rotateRight 41
  sigma0 x := x.rotateRight 1 ^^^ x.rotateRight 8 ^^^ (x >>> 7)
  sigma1 x := x.rotateRight 19 ^^^ x.rotateRight 61 ^^^ (x >>> 6)

namespace Sha2Family
variable (F : Sha2Family)

/-- Word of the family. -/
abbrev Word := BitVec (8 * F.k)

/-- The eight working variables / the eight words of the hash value. -/
structure Vars where
  (a b c d e f g h : F.Word)

/-- `K_t`: the first `w` bits of the fractional parts of the cube roots of the first primes (sections 4.2.2, 4.2.3). -/
def K (t : Nat) : F.Word := BitVec.ofNat _ (fracRoot 3 (8 * F.k) (primes80.getD t 0))

/-- Message schedule (sections 6.2.2 and 6.4.2, step 1). -/
def W (block : List Byte) (t : Nat) : F.Word :=
  if _h : t < 16 then beWord F.k block t
  else F.sigma1 (W block (t - 2)) + W block (t - 7) + F.sigma0 (W block (t - 15)) + W block (t - 16)
termination_by t

/-- Working variables after `t` rounds (steps 2 and 3). -/
def vars (block : List Byte) (H : F.Vars) : Nat → F.Vars
  | 0 => H
  | t + 1 =>
    let v := vars block H t
    let T1 := v.h + F.bigSigma1 v.e + Ch v.e v.f v.g + F.K t + F.W block t
    let T2 := F.bigSigma0 v.a + Maj v.a v.b v.c
    ⟨T1 + T2, v.a, v.b, v.c, v.d + T1, v.e, v.f, v.g⟩

/-- Step 4. -/
def compress (H : F.Vars) (block : List Byte) : F.Vars :=
  let v := F.vars block H F.rounds
  ⟨v.a + H.a, v.b + H.b, v.c + H.c, v.d + H.d, v.e + H.e, v.f + H.f, v.g + H.g, v.h + H.h⟩

/-- Final hash value as bytes. -/
def bytes (H : F.Vars) : List Byte :=
  [H.a, H.b, H.c, H.d, H.e, H.f, H.g, H.h].flatMap (fun x => beBytes F.k x.toNat)

/-- Initial hash value from a function giving its eight words. -/
def ivOf (f : Nat → Nat) : F.Vars :=
  let g i : F.Word := BitVec.ofNat _ (f i)
  ⟨g 0, g 1, g 2, g 3, g 4, g 5, g 6, g 7⟩

/-- Sections 6.2 and 6.4: pad, parse, iterate. Blocks are 16 words, the length field is 2 words. -/
def hash (iv : F.Vars) (m : List Byte) : List Byte :=
  F.bytes (iterate F.compress iv (blocks (16 * F.k) (pad (16 * F.k) (2 * F.k) (beBytes (2 * F.k)) m)))

end Sha2Family

/-- Section 6.2; initial value: first 32 bits of the fractional parts of the square roots of the first 8 primes. -/
def sha256 (m : List Byte) : List Byte :=
  family32.hash (family32.ivOf (fun i => fracRoot 2 32 (primes80.getD i 0))) m

/-- Section 6.4; initial value: first 64 bits of the fractional parts of the square roots of the first 8 primes. -/
def sha512 (m : List Byte) : List Byte :=
  family64.hash (family64.ivOf (fun i => fracRoot 2 64 (primes80.getD i 0))) m

/-- Section 6.5; initial value: first 64 bits of the fractional parts of the square roots of the 9th to 16th primes; the
digest is the left 384 bits. -/
def sha384 (m : List Byte) : List Byte :=
  (family64.hash (family64.ivOf (fun i => fracRoot 2 64 (primes80.getD (8 + i) 0))) m).take 48

/-- Section 6.3; initial value: the second 32 bits of the fractional parts of the square roots of the 9th to 16th primes;
the digest is the left 224 bits. -/
def sha224 (m : List Byte) : List Byte :=
  (family32.hash (family32.ivOf (fun i => fracRoot 2 64 (primes80.getD (8 + i) 0))) m).take 28

/-! ### SHA-1 (section 6.1) -/

/-- Section 4.1.1 -/
def sha1F (t : Nat) (x y z : U32) : U32 :=
  if t ≤ 19 then Ch x y z else if t ≤ 39 then Parity x y z else if t ≤ 59 then Maj x y z else Parity x y z

/-- Section 4.2.1 -/
def sha1K (t : Nat) : U32 :=
  if t ≤ 19 then 0x5a827999 else if t ≤ 39 then 0x6ed9eba1 else if t ≤ 59 then 0x8f1bbcdc else 0xca62c1d6

/-- Section 6.1.2 step 1 -/
def sha1W (block : List Byte) (t : Nat) : U32 :=
  if _h : t < 16 then beWord 4 block t
  else (sha1W block (t - 3) ^^^ sha1W block (t - 8) ^^^ sha1W block (t - 14) ^^^ sha1W block (t - 16)).rotateLeft 1
termination_by t

/-- Working variables / hash value of SHA-1. -/
structure Sha1Vars where
  (a b c d e : U32)

/-- Section 6.1.2 steps 2 and 3 -/
def sha1Vars (block : List Byte) (H : Sha1Vars) : Nat → Sha1Vars
  | 0 => H
  | t + 1 =>
    let v := sha1Vars block H t
    let T := v.a.rotateLeft 5 + sha1F t v.b v.c v.d + v.e + sha1K t + sha1W block t
    ⟨T, v.a, v.b.rotateLeft 30, v.c, v.d⟩

/-- Section 6.1.2 step 4 -/
def sha1Compress (H : Sha1Vars) (block : List Byte) : Sha1Vars :=
  let v := sha1Vars block H 80
  ⟨v.a + H.a, v.b + H.b, v.c + H.c, v.d + H.d, v.e + H.e⟩

/-- Section 6.1; initial value of section 5.3.1 -/
def sha1 (m : List Byte) : List Byte :=
  let H := iterate sha1Compress ⟨0x67452301, 0xefcdab89, 0x98badcfe, 0x10325476, 0xc3d2e1f0⟩
    (blocks 64 (pad 64 8 (beBytes 8) m))
  [H.a, H.b, H.c, H.d, H.e].flatMap (fun x => beBytes 4 x.toNat)

end Verif.Spec
