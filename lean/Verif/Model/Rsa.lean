import Verif.Model.Hash
import Verif.Model.Mont
import Verif.Model.Random

/-! Model of include/caligo/pkcs1.h, include/caligo/rsa.h and the RSA classes of src/X509Certificate.cpp.
The templates over a hash class take its `HashClass`. Simplification: the uninitialised buffer inside a hash object is taken to be zero;
`Props.C03_uninitialised_buffer_irrelevant` shows that its content does not matter. -/

namespace Verif.Model

/-- `a - b` on `size_t` -/
def szSub (a b : Nat) : Nat := (a + 2 ^ 64 - b) % 2 ^ 64

/-- A default constructed hash object of class `c`; see `hnew`. -/
def hnew0 (c : HashClass) : HState c := hnew c (List.replicate (bufSize c) 0#8)

/-- `Hash(data)` converted to `std::array`: the one-shot constructors include/caligo/md5.h:14-19, sha1.h:14-19, sha2.h:18-23,50-55,81-86,113-118,
sha3.h:16-21. -/
def hashOf (c : HashClass) (data : List Byte) : List Byte := hdata c (hadd c (hnew0 c) data)

/-- `Hash::getAsn1Id()`. `CRC32` has no such member, so the templates that use it cannot be instantiated with it. -/
def asn1Id (c : HashClass) : List Byte := (getAsn1Id c).getD []

/-- The SEQUENCE header put in front of the signed data: include/caligo/pkcs1.h:17-33 -/
def pkcs1Prefix (size : Nat) : List Byte :=
  [0x30#8] ++
  if size < 0x80 then [BitVec.ofNat 8 size]
  else if size < 0x100 then [0x81#8, BitVec.ofNat 8 size]
  else if size < 0x10000 then [0x82#8, BitVec.ofNat 8 ((size >>> 8) &&& 0xFF), BitVec.ofNat 8 (size &&& 0xFF)]
  else [0x83#8, BitVec.ofNat 8 ((size >>> 16) &&& 0xFF), BitVec.ofNat 8 ((size >>> 8) &&& 0xFF), BitVec.ofNat 8 (size &&& 0xFF)]

/-- `PKCS1<Hash>` : include/caligo/pkcs1.h:5-41. The loop in lines 10-12 appends until the size reaches a `size_t` bound. A bound beyond the
maximal size of a vector (`2^63 - 1` bytes) can only end by exhausting memory. -/
def pkcs1 (c : HashClass) (data : List Byte) (requestedSize : Nat) : Out (List Byte) :=
  let bound := szSub (szSub (szSub requestedSize (asn1Id c).length) (hashsize c)) 1
  if 2 ^ 63 ≤ bound then .error .diverges
  else
    let rv := [0#8, 1#8]
    let rv := rv ++ List.replicate (bound - rv.length) 0xFF#8
    let rv := rv ++ [0#8]
    let rv := rv ++ asn1Id c
    .ok (rv ++ hdata c (hadd c (hadd c (hnew0 c) (pkcs1Prefix data.length)) data))

/-- Incrementing the counter at the end of `C` : include/caligo/rsa.h:37-46 -/
def mgfIncr (C : List Byte) : Out (List Byte) := do
  let a ← rd C (C.length - 1)
  let C ← wr C (C.length - 1) (a + 1#8)
  if a + 1#8 = 0#8 then
    let a ← rd C (C.length - 2)
    let C ← wr C (C.length - 2) (a + 1#8)
    if a + 1#8 = 0#8 then
      let a ← rd C (C.length - 3)
      let C ← wr C (C.length - 3) (a + 1#8)
      if a + 1#8 = 0#8 then
        let a ← rd C (C.length - 4)
        wr C (C.length - 4) (a + 1#8)
      else return C
    else return C
  else return C

/-- The loop of `MGF` : include/caligo/rsa.h:32-47. Every pass appends at least one byte, so `length` passes suffice. -/
def mgfLoop (c : HashClass) (length : Nat) : Nat → List Byte → List Byte → Out (List Byte)
  | 0, T, _ => if T.length < length then .error .diverges else .ok T
  | k + 1, T, C =>
    if T.length < length then do
      let hv := hashOf c C
      let C ← mgfIncr C
      mgfLoop c length k (T ++ hv) C
    else .ok T

/-- `MGF1<Hash>::MGF` : include/caligo/rsa.h:23-52 -/
def mgf (c : HashClass) (seed : List Byte) (length : Nat) : Out (List Byte) :=
  if 0x100000000 < length then .ok []
  else do
    let T ← mgfLoop c length length [] (seed ++ List.replicate 4 0#8)
    return T.take length

/-- `getSalt<Hash, sLen>` : include/caligo/rsa.h:55-65. A span that starts before the data is undefined behaviour. The loop variable starts at
a `size_t` difference; if that wraps around the loop body never runs. -/
def getSalt (c : HashClass) (sLen : Nat) (sig : List Byte) : Out (List Byte) :=
  if sig.length < hashsize c + 1 then .error .ub
  else do
    let H := (sig.drop (sig.length - hashsize c - 1)).take (hashsize c)
    let dbmask ← mgf c H (szSub (szSub sig.length (hashsize c)) 1)
    let start := szSub dbmask.length sLen
    loop (dbmask.length - start) [] (fun salt i => do
      let a ← rd sig (start + i)
      let b ← rd dbmask (start + i)
      return salt ++ [a ^^^ b])

/-- `generatePssData<Hash>` : include/caligo/rsa.h:67-82 -/
def generatePss (c : HashClass) (data salt : List Byte) (desiredLength : Nat) : Out (List Byte) := do
  let H := hdata c (hadd c (hadd c (hadd c (hnew0 c) (List.replicate 8 0#8)) data) salt)
  let dbmask ← mgf c H (szSub (szSub desiredLength (hashsize c)) 1)
  let i := szSub (szSub dbmask.length salt.length) 1
  let a ← rd dbmask i
  let dbmask ← wr dbmask i (a ^^^ 0x01#8)
  let dbmask ← loop salt.length dbmask (fun m n => do
    let j := (szSub m.length salt.length + n) % 2 ^ 64
    let a ← rd m j
    let b ← rd salt n
    wr m j (a ^^^ b))
  return dbmask ++ H ++ [0xbc#8]

/-- `std::vector::resize` -/
def resize (v : List Byte) (n : Nat) : List Byte := v.take n ++ List.replicate (n - v.length) 0#8

/-- `rsa_public_key<N>` : include/caligo/rsa.h:84-93 -/
structure RsaPub where
  s : MontState
  n : List U32
  e : List U32

/-- constructor: include/caligo/rsa.h:89-93 -/
def rsaPubNew (N : Nat) (n e : List U32) : Out RsaPub := do
  let s ← montNew N n
  return ⟨s, n, e⟩

/-- `rsaep` : include/caligo/rsa.h:99-105 -/
def rsaep (N : Nat) (k : RsaPub) (m : List U32) : Out (List U32) :=
  if bnEq k.e (bnOfU32 N 65537#32) then do
    let v ← montOf N k.s m
    let x ← montExp32 N k.s v 65537#32
    montTo N k.s x
  else do
    let v ← montOf N k.s m
    let x ← montExp N k.s v k.e
    montTo N k.s x

/-- `validatePkcs1_5Signature` : include/caligo/rsa.h:106-111 -/
def validatePkcs1 (N : Nat) (k : RsaPub) (c : HashClass) (data sig : List Byte) : Out Bool := do
  let hash ← pkcs1 c data sig.length
  let r ← rsaep N k (bnOfBytes N sig)
  return bnEq (bnOfBytes N hash.reverse) r

/-- `validatePssSignature<Hash, MGF>` : include/caligo/rsa.h:112-125; `MGF` is used for its `hashsize` only, here `sLen`. -/
def validatePss (N : Nat) (k : RsaPub) (c : HashClass) (sLen : Nat) (message sig : List Byte) : Out Bool := do
  let sigBN := bnOfBytes N sig.reverse
  let r ← rsaep N k sigBN
  let dSigV := (resize (bnAsBytes r) sig.length).reverse
  let salt ← getSalt c sLen dSigV
  let hMessage := hashOf c message
  let pssdata ← generatePss c hMessage salt dSigV.length
  let a ← rd pssdata 0
  let pssdata ← wr pssdata 0 (a &&& 0x7F#8)
  return decide (dSigV = pssdata)

/-- `rsa_private_key<N>` : include/caligo/rsa.h:128-133 -/
structure RsaPriv where
  s : MontState
  n : List U32
  d : List U32
  actualN : Nat

/-- `while (not n.bit(actualN)) actualN--; actualN++` : include/caligo/rsa.h:139-140. Passing bit 0 wraps the index around. -/
def bitLenLoop (n : List U32) : Nat → Out Nat
  | 0 => do
    let b ← bnBit n 0
    if b = 0#32 then .error .ub else return 1
  | k + 1 => do
    let b ← bnBit n (k + 1)
    if b = 0#32 then bitLenLoop n k else return k + 2

/-- constructor: include/caligo/rsa.h:134-141 -/
def rsaPrivNew (N : Nat) (n d : List U32) : Out RsaPriv := do
  let s ← montNew N n
  let a ← bitLenLoop n (N - 1)
  return ⟨s, n, d, a⟩

/-- `rsadp` : include/caligo/rsa.h:142-144 -/
def rsadp (N : Nat) (k : RsaPriv) (m : List U32) : Out (List U32) := do
  let v ← montOf N k.s m
  let x ← montExp N k.s v k.d
  montTo N k.s x

/-- Dropping high zero bytes of the signature: include/caligo/rsa.h:150, on the reversed vector, so that the back is the head. Reading in front
of a one-byte vector is undefined behaviour. -/
def stripZeros : List Byte → Out (List Byte)
  | [] => .error .ub
  | [a] => if a = 0#8 then .error .ub else .ok [a]
  | a :: b :: t => if a = 0#8 ∧ b &&& 0x80#8 = 0#8 then stripZeros (b :: t) else .ok (a :: b :: t)

/-- `signPkcs1_5Signature` : include/caligo/rsa.h:145-153 -/
def signPkcs1 (N : Nat) (k : RsaPriv) (c : HashClass) (data : List Byte) : Out (List Byte) := do
  let hash ← pkcs1 c data (k.actualN / 8)
  let r ← rsadp N k (bnOfBytes N hash.reverse)
  stripZeros (bnAsBytes r).reverse

/-- `signPssSignature` : include/caligo/rsa.h:154-163 -/
def signPss (N : Nat) (k : RsaPriv) (c : HashClass) (message salt : List Byte) : Out (List Byte) := do
  let pssData ← generatePss c message salt (k.actualN / 8)
  let a ← rd pssData 0
  let pssData ← wr pssData 0 (a &&& 0x7F#8)
  let r ← rsadp N k (bnOfBytes N pssData.reverse)
  return (resize (bnAsBytes r) (k.actualN / 8)).reverse

/-- `RsaPubkey::validateSignature` : src/X509Certificate.cpp:51-71, with the scheme numbers of include/caligo/X509Certificate.h:102-118.
The key type is `rsa_public_key<4096>` (include/caligo/X509Certificate.h:126). -/
def validateSignature (k : RsaPub) (scheme : Nat) (data sig : List Byte) : Out Bool :=
  if scheme = 0x0401 then validatePkcs1 4096 k .sha2_256 data sig
  else if scheme = 0x0501 then validatePkcs1 4096 k .sha2_384 data sig
  else if scheme = 0x0601 then validatePkcs1 4096 k .sha2_512 data sig
  else if scheme = 0x0804 ∨ scheme = 0x0809 then validatePss 4096 k .sha2_256 (hashsize .sha2_256) data sig
  else if scheme = 0x0805 ∨ scheme = 0x080a then validatePss 4096 k .sha2_384 (hashsize .sha2_384) data sig
  else if scheme = 0x0806 ∨ scheme = 0x080b then validatePss 4096 k .sha2_512 (hashsize .sha2_512) data sig
  else .ok false

/-- `RsaPrivateKey::sign` : src/X509Certificate.cpp:73-100. The message is always hashed with `SHA2<256>`. -/
def rsaSign (k : RsaPriv) (scheme : Nat) (data : List Byte) (rs : RandState) : Out (List Byte × RandState) :=
  if scheme = 0x0401 then (signPkcs1 4096 k .sha2_256 data).map (·, rs)
  else if scheme = 0x0501 then (signPkcs1 4096 k .sha2_384 data).map (·, rs)
  else if scheme = 0x0601 then (signPkcs1 4096 k .sha2_512 data).map (·, rs)
  else if scheme = 0x0804 ∨ scheme = 0x0809 then
    let (salt, rs) := genRandom8 32 rs
    (signPss 4096 k .sha2_256 (hashOf .sha2_256 data) salt).map (·, rs)
  else if scheme = 0x0805 ∨ scheme = 0x080a then
    let (salt, rs) := genRandom8 48 rs
    (signPss 4096 k .sha2_384 (hashOf .sha2_256 data) salt).map (·, rs)
  else if scheme = 0x0806 ∨ scheme = 0x080b then
    let (salt, rs) := genRandom8 64 rs
    (signPss 4096 k .sha2_512 (hashOf .sha2_256 data) salt).map (·, rs)
  else .ok ([], rs)

end Verif.Model
