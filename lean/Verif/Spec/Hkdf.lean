import Verif.Spec.Hash

/-! RFC 2104 (HMAC), RFC 5869 (HKDF) and RFC 8446 sections 7.1 and 7.3 (TLS 1.3 key schedule). Written from the RFCs, independent of the model. -/

namespace Verif.Spec

/-- Block size in bytes of the compression function (RFC 2104 `B`; FIPS 180-4 figure 1; for SHA-3 the rate, FIPS 202 section 7). CRC32 is not
usable with HMAC; its value is immaterial. -/
def blockLength : HashClass → Nat
  | .md5 | .sha1 | .sha2_224 | .sha2_256 => 64
  | .sha2_384 | .sha2_512 => 128
  | .sha3_224 => 144
  | .sha3_256 => 136
  | .sha3_384 => 104
  | .sha3_512 => 72
  | .crc32 => 0

/-- RFC 2104 section 2 for a hash function `H` with block size `B`. -/
def rfc2104 (H : List Byte → List Byte) (B : Nat) (K text : List Byte) : List Byte :=
  let K0 := if K.length > B then H K else K
  let Kp := K0 ++ List.replicate (B - K0.length) 0x00#8
  H (Kp.map (fun k => k ^^^ 0x5C#8) ++ H (Kp.map (fun k => k ^^^ 0x36#8) ++ text))

/-- HMAC with a hash of the library. -/
noncomputable def hmac (c : HashClass) (K text : List Byte) : List Byte := rfc2104 (digest c) (blockLength c) K text

section Hkdf
/-! The rest is generic in the MAC: `mac key text`, with output length `hLen`. -/
variable (mac : List Byte → List Byte → List Byte) (hLen : Nat)

/-- RFC 5869 section 2.2. -/
def hkdfExtract (salt ikm : List Byte) : List Byte := mac salt ikm

/-- RFC 5869 section 2.3: `T(i)`. -/
def hkdfT (prk info : List Byte) : Nat → List Byte
  | 0 => []
  | i + 1 => mac prk (hkdfT prk info i ++ info ++ [BitVec.ofNat 8 (i + 1)])

/-- RFC 5869 section 2.3: the output for `L <= 255*HashLen`; larger lengths are not allowed. -/
def hkdfExpand (prk info : List Byte) (L : Nat) : Option (List Byte) :=
  if L ≤ 255 * hLen then
    let N := (L + hLen - 1) / hLen
    some (((List.range N).flatMap (fun i => hkdfT mac prk info (i + 1))).take L)
  else none

/-- TLS presentation language: a vector with a one-byte length. -/
def opaque8 (v : List Byte) : List Byte := BitVec.ofNat 8 v.length :: v

/-- RFC 8446 section 7.1: the structure `HkdfLabel`; `none` if a field is out of its range. -/
def hkdfLabel (length : Nat) (label context : List Byte) : Option (List Byte) :=
  let l := ascii "tls13 " ++ label
  if length < 2 ^ 16 ∧ 7 ≤ l.length ∧ l.length ≤ 255 ∧ context.length ≤ 255 then
    some ([BitVec.ofNat 8 (length / 256), BitVec.ofNat 8 (length % 256)] ++ opaque8 l ++ opaque8 context)
  else none

/-- RFC 8446 section 7.1: `HKDF-Expand-Label`. -/
def expandLabel (secret label context : List Byte) (length : Nat) : Option (List Byte) := do
  let info ← hkdfLabel length label context
  hkdfExpand mac hLen secret info length

/-- RFC 8446 section 7.1: `Derive-Secret` for a transcript with the given hash. -/
def deriveSecret (secret label transcriptHash : List Byte) : Option (List Byte) := expandLabel mac hLen secret label transcriptHash hLen

/-- A string of `Hash.length` zero bytes. -/
def zeros : List Byte := List.replicate hLen 0x00#8

/-- RFC 8446 section 7.1, without a pre-shared key: Early Secret. -/
def earlySecret : List Byte := hkdfExtract mac (zeros hLen) (zeros hLen)

/-- Handshake Secret; `emptyHash` is the hash of the empty string. -/
def handshakeSecret (emptyHash ecdhe : List Byte) : Option (List Byte) := do
  let d ← deriveSecret mac hLen (earlySecret mac hLen) (ascii "derived") emptyHash
  return hkdfExtract mac d ecdhe

/-- Master Secret. -/
def masterSecret (emptyHash hs : List Byte) : Option (List Byte) := do
  let d ← deriveSecret mac hLen hs (ascii "derived") emptyHash
  return hkdfExtract mac d (zeros hLen)

/-- The traffic secrets of the two sides: from the handshake secret and from the master secret. -/
inductive Traffic where
  | clientHandshake | serverHandshake | clientApplication | serverApplication
deriving DecidableEq

/-- The labels of RFC 8446 section 7.1. -/
def Traffic.label : Traffic → List Byte
  | .clientHandshake => ascii "c hs traffic"
  | .serverHandshake => ascii "s hs traffic"
  | .clientApplication => ascii "c ap traffic"
  | .serverApplication => ascii "s ap traffic"

/-- A traffic secret. -/
def trafficSecret (t : Traffic) (secret transcriptHash : List Byte) : Option (List Byte) := deriveSecret mac hLen secret t.label transcriptHash

/-- RFC 8446 section 7.3: write key and write iv of a traffic secret. -/
def trafficKeys (keyLength ivLength : Nat) (ts : List Byte) : Option (List Byte × List Byte) := do
  let key ← expandLabel mac hLen ts (ascii "key") [] keyLength
  let iv ← expandLabel mac hLen ts (ascii "iv") [] ivLength
  return (key, iv)

/-- RFC 8446 section 4.4.4: the key of the Finished message. -/
def finishedKey (baseKey : List Byte) : Option (List Byte) := expandLabel mac hLen baseKey (ascii "finished") [] hLen

end Hkdf
end Verif.Spec
