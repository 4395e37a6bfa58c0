import Verif.Base.Basic
import Verif.Spec.Bignum

/-! NIST SP 800-38D (Galois/Counter Mode), written from the standard and independently of the model. Bit strings of whole bytes are lists of bytes,
first byte leftmost; a block is also read as a 128-bit number whose leftmost bit is the most significant one. -/

namespace Verif.Spec.Gcm

/-- The 128-bit number of a 16-byte block, first byte most significant. -/
def block (l : List Byte) : BitVec 128 := BitVec.ofNat 128 (beNat l)
/-- The 16 bytes of a block. -/
def unblock (x : BitVec 128) : List Byte := (List.range 16).map (fun i => x.extractLsb' (8 * (15 - i)) 8)

/-- `R = 11100001 || 0^120` (section 6.3) -/
def gR : BitVec 128 := 0xe1#128 <<< 120

/-- `X • Y` (section 6.3): bits `x_0 x_1 ... x_127` of `X` from the left; `Z_(i+1) = Z_i + x_i V_i`; `V_(i+1) = V_i >> 1`, plus `R` when the
rightmost bit of `V_i` is 1. -/
def mul (x y : BitVec 128) : BitVec 128 :=
  ((List.range 128).foldl (fun (zv : BitVec 128 × BitVec 128) i =>
    (if x.getMsbD i then zv.1 ^^^ zv.2 else zv.1, if zv.2.getLsbD 0 then (zv.2 >>> 1) ^^^ gR else zv.2 >>> 1)) (0#128, y)).1

/-- Bitwise exclusive or of byte strings. -/
def xorBytes (a b : List Byte) : List Byte := List.zipWith (· ^^^ ·) a b

/-- The 16-byte blocks of a string whose length is a multiple of 16; `n` blocks. -/
def blocksOf (n : Nat) (l : List Byte) : List (BitVec 128) := (List.range n).map (fun i => block ((l.drop (16 * i)).take 16))

/-- `GHASH_H(X)` (section 6.4) of a string of whole blocks. -/
def ghash (h : BitVec 128) (x : List Byte) : BitVec 128 := (blocksOf (x.length / 16) x).foldl (fun y xi => mul (y ^^^ xi) h) 0#128

/-- `X || 0^s` with the least `s` that makes the length a multiple of 128 bits. -/
def pad16 (x : List Byte) : List Byte := x ++ List.replicate ((16 - x.length % 16) % 16) 0#8
/-- `[n]_64` -/
def be64 (n : Nat) : List Byte := (List.range 8).map (fun i => BitVec.ofNat 8 (n / 256 ^ (7 - i)))

/-- `inc_32` (section 6.2) -/
def inc32 (x : List Byte) : List Byte :=
  x.take 12 ++ (let n := (beNat (x.drop 12) + 1) % 2 ^ 32; (List.range 4).map (fun i => BitVec.ofNat 8 (n / 256 ^ (3 - i))))

/-- `GCTR_K(ICB, X)` (section 6.5), with the block cipher as a function on 16-byte blocks. -/
def gctr (ciph : List Byte → List Byte) (icb : List Byte) (x : List Byte) : List Byte :=
  if h : x.length = 0 then [] else xorBytes (x.take 16) (ciph icb) ++ gctr ciph (inc32 icb) (x.drop 16)
termination_by x.length
decreasing_by simp; omega

/-- The hash subkey `H` (section 7.1, step 1). -/
def subkey (ciph : List Byte → List Byte) : BitVec 128 := block (ciph (List.replicate 16 0#8))

/-- `J_0` (section 7.1, step 2) -/
def j0 (ciph : List Byte → List Byte) (iv : List Byte) : List Byte :=
  if iv.length = 12 then iv ++ [0#8, 0#8, 0#8, 1#8]
  else unblock (ghash (subkey ciph) (pad16 iv ++ List.replicate 8 0#8 ++ be64 (8 * iv.length)))

/-- `GCM-AE_K(IV, P, A)` with a 128-bit tag (section 7.1), starting from a pre-counter block `J_0`. -/
def aeJ (ciph : List Byte → List Byte) (j : List Byte) (p a : List Byte) : List Byte × List Byte :=
  let c := gctr ciph (inc32 j) p
  let s := ghash (subkey ciph) (pad16 a ++ pad16 c ++ be64 (8 * a.length) ++ be64 (8 * c.length))
  (c, gctr ciph j (unblock s))

/-- `GCM-AE_K(IV, P, A)` (section 7.1) -/
def ae (ciph : List Byte → List Byte) (iv p a : List Byte) : List Byte × List Byte := aeJ ciph (j0 ciph iv) p a

/-- `GCM-AD_K(IV, C, A, T)` (section 7.2) with a 128-bit tag, from a pre-counter block; `none` is FAIL. -/
def adJ (ciph : List Byte → List Byte) (j : List Byte) (c a t : List Byte) : Option (List Byte) :=
  let s := ghash (subkey ciph) (pad16 a ++ pad16 c ++ be64 (8 * a.length) ++ be64 (8 * c.length))
  if t = gctr ciph j (unblock s) then some (gctr ciph (inc32 j) c) else none

/-- The nonce of record `n` (RFC 8446 section 5.3): the 64-bit record number, padded to the left with zeros to the length of the IV, xored with the
IV. -/
def recordNonce (iv : List Byte) (n : Nat) : List Byte := xorBytes iv (List.replicate (iv.length - 8) 0#8 ++ be64 n)

end Verif.Spec.Gcm
