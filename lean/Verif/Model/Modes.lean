import Verif.Base.Mem
import Verif.Base.Basic

/-!
`include/caligo/legacy/cbc.h`, `include/caligo/legacy/ecb.h`: cipher block chaining and electronic codebook over a block cipher that works in place.

`AES` has no `Decrypt` and no in-place `Encrypt`, the function `xorOnto` (cbc.h:27, 29) is not declared anywhere, and the array `iv` of `CBC`
(cbc.h:14, 35) cannot be initialised from the vector of a `key_iv_pair`: the two templates cannot be instantiated with what the library contains. The
model is generic in the cipher and gives `xorOnto(dst, src, n)` its obvious meaning.
-/

namespace Verif.Model

/-- The cipher parameter: block size and the two in-place functions on a block of `size` bytes (include/caligo/legacy/cbc.h:20, 31). -/
structure BlockCipher where
  size : Nat
  encrypt : List Byte → List Byte
  decrypt : List Byte → List Byte

/-- `Cipher::Encrypt(sched, buf.data() + n)`: the function `f` applied to the block at offset `n`; past the end it is undefined behaviour. -/
def inPlace (size : Nat) (f : List Byte → List Byte) (buf : List Byte) (n : Nat) : Out (List Byte) :=
  if n + size ≤ buf.length then .ok (overwrite buf n (f ((buf.drop n).take size))) else .error .ub

/-- `xorOnto(buf.data() + n, src, size)` -/
def xorOnto (size : Nat) (buf : List Byte) (n : Nat) (src : List Byte) : Out (List Byte) :=
  if n + size ≤ buf.length ∧ size ≤ src.length then
    .ok (overwrite buf n (List.zipWith (· ^^^ ·) ((buf.drop n).take size) (src.take size))) else .error .ub

/-- `ECB::Encrypt` (include/caligo/legacy/ecb.h:22-27); the assertion is the check that the size is a multiple of the block size. Pass `k` of the loop
has `n = k * size`. -/
def ecbEncrypt (C : BlockCipher) (buf : List Byte) : Out (List Byte) :=
  if buf.length % C.size = 0 then loop (buf.length / C.size) buf (fun buf k => inPlace C.size C.encrypt buf (k * C.size)) else .error .thrown

/-- `ECB::Decrypt` (include/caligo/legacy/ecb.h:16-21) -/
def ecbDecrypt (C : BlockCipher) (buf : List Byte) : Out (List Byte) :=
  if buf.length % C.size = 0 then loop (buf.length / C.size) buf (fun buf k => inPlace C.size C.decrypt buf (k * C.size)) else .error .thrown

/-- `CBC::Encrypt` (include/caligo/legacy/cbc.h:23-33) -/
def cbcEncrypt (C : BlockCipher) (iv buf : List Byte) : Out (List Byte) :=
  if buf.length % C.size = 0 then loop (buf.length / C.size) buf (fun buf k => do
    let n := k * C.size
    let buf ← if n = 0 then xorOnto C.size buf 0 iv else xorOnto C.size buf n (buf.drop (n - C.size))
    inPlace C.size C.encrypt buf n) else .error .thrown

/-- `CBC::Decrypt` (include/caligo/legacy/cbc.h:17-22): no exclusive or. -/
def cbcDecrypt (C : BlockCipher) (buf : List Byte) : Out (List Byte) :=
  if buf.length % C.size = 0 then loop (buf.length / C.size) buf (fun buf k => inPlace C.size C.decrypt buf (k * C.size)) else .error .thrown

end Verif.Model
