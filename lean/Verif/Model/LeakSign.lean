import Verif.Model.LeakHash

/-! The signature functions of include/caligo/rsa.h with the events that an observer may see; see `Model.Leak`. -/

namespace Verif.Model

/-! ### a hash object that is fed several pieces -/

/-- `add` for one piece after the other, for the classes with a block buffer -/
def blockPiecesL {A : BlockAlg} (L : BlockAlgL A) : BlockState A → List (List Byte) → Leak (BlockState A)
  | s, [] => pure s
  | s, d :: ds => do
    let s ← blockAddL L s d
    blockPiecesL L s ds

/-- Constructor (which sets `n` words), `add` for every piece and conversion to `std::array`, for the classes with a block buffer -/
def blockPieceHashL {A : BlockAlg} (L : BlockAlgL A) (n : Nat) (buf : List Byte) (ds : List (List Byte)) : Leak (List Byte) := do
  touch n
  let s ← blockPiecesL L (BlockState.new A buf) ds
  blockDataL L s

/-- `add` for one piece after the other, for `SHA3` -/
def sha3PiecesL (junk : List U64) (size : Nat) : Sha3State → List (List Byte) → Leak Sha3State
  | s, [] => pure s
  | s, d :: ds => do
    let s ← sha3AddL junk size s d
    sha3PiecesL junk size s ds

/-- Constructor, `add` for every piece and conversion to `std::array`, for `SHA3` -/
def sha3PieceHashL (junk : List U64) (size : Nat) (ds : List (List Byte)) : Leak (List Byte) := do
  let s ← sha3PiecesL junk size Sha3State.new ds
  sha3DataL junk size s

/-- `add` for one piece after the other, for `CRC32` -/
def crcPiecesL : U32 → List (List Byte) → Leak U32
  | h, [] => pure h
  | h, d :: ds => do
    let h ← crcAddL h d
    crcPiecesL h ds

/-- `Hash h; h.add(d1); h.add(d2); …; std::array a = h` as in include/caligo/pkcs1.h:34-37 and rsa.h:69-73; see `hnew`, `hadd`, `hdata`. -/
def hashPiecesL (J : Junk) (buf : List Byte) (c : HashClass) (ds : List (List Byte)) : Leak (List Byte) :=
  match c with
  | .md5 => blockPieceHashL md5L 4 buf ds
  | .sha1 => blockPieceHashL (sha1L J.w32) 5 buf ds
  | .sha2_224 => blockPieceHashL (sha224L (J.w32.take 64)) 8 buf ds
  | .sha2_256 => blockPieceHashL (sha256L (J.w32.take 64)) 8 buf ds
  | .sha2_384 => blockPieceHashL (sha384L J.w64) 8 buf ds
  | .sha2_512 => blockPieceHashL (sha512L J.w64) 8 buf ds
  | .sha3_224 => sha3PieceHashL J.w5 224 ds
  | .sha3_256 => sha3PieceHashL J.w5 256 ds
  | .sha3_384 => sha3PieceHashL J.w5 384 ds
  | .sha3_512 => sha3PieceHashL J.w5 512 ds
  | .crc32 => do
    let h ← crcPiecesL crcNew ds
    touch 4
    return crcData h

/-! ### include/caligo/pkcs1.h -/

/-- The branches on the size of the data: include/caligo/pkcs1.h:20-33 -/
def pkcs1PrefixL (size : Nat) : Leak (List Byte) := do
  emit (.branch (decide (size < 0x80)))
  if size < 0x80 then return pkcs1Prefix size
  emit (.branch (decide (size < 0x100)))
  if size < 0x100 then return pkcs1Prefix size
  emit (.branch (decide (size < 0x10000)))
  return pkcs1Prefix size

/-- `PKCS1<Hash>` : include/caligo/pkcs1.h:5-41; see `pkcs1`. A `push_back` accesses the place behind the last element. -/
def pkcs1L (J : Junk) (buf : List Byte) (c : HashClass) (data : List Byte) (requestedSize : Nat) : Leak (List Byte) :=
  let bound := szSub (szSub (szSub requestedSize (asn1Id c).length) (hashsize c)) 1
  if 2 ^ 63 ≤ bound then Leak.ofOut (.error .diverges)
  else do
    touch 2
    loopL (bound - 2) () (fun _ i => emit (.addr (2 + i)))
    let rv := [0#8, 1#8] ++ List.replicate (bound - 2) 0xFF#8 ++ [0#8]
    emit (.addr rv.length)
    let rv := rv ++ asn1Id c
    let p ← pkcs1PrefixL data.length
    let h ← hashPiecesL J buf c [p, data]
    emit (.addr rv.length)
    return rv ++ h

/-! ### include/caligo/rsa.h -/

/-- Incrementing the counter: include/caligo/rsa.h:37-46. Each test reads the byte that was just written. -/
def mgfIncrL (C : List Byte) : Leak (List Byte) := do
  let a ← rdL C (C.length - 1)
  let C ← wrL C (C.length - 1) (a + 1#8)
  emit (.branch (decide (a + 1#8 = 0#8)))
  if a + 1#8 = 0#8 then do
    let a ← rdL C (C.length - 2)
    let C ← wrL C (C.length - 2) (a + 1#8)
    emit (.branch (decide (a + 1#8 = 0#8)))
    if a + 1#8 = 0#8 then do
      let a ← rdL C (C.length - 3)
      let C ← wrL C (C.length - 3) (a + 1#8)
      emit (.branch (decide (a + 1#8 = 0#8)))
      if a + 1#8 = 0#8 then do
        let a ← rdL C (C.length - 4)
        wrL C (C.length - 4) (a + 1#8)
      else pure C
    else pure C
  else pure C

/-- The loop of `MGF` : include/caligo/rsa.h:32-47; see `mgfLoop`. -/
def mgfLoopL (J : Junk) (buf : List Byte) (c : HashClass) (length : Nat) : Nat → List Byte → List Byte → Leak (List Byte)
  | 0, T, _ => Leak.ofOut (if T.length < length then .error .diverges else .ok T)
  | k + 1, T, C => do
    emit (.branch (decide (T.length < length)))
    if T.length < length then do
      let hv ← hashOfL J buf c C
      emit (.addr T.length)
      let C ← mgfIncrL C
      mgfLoopL J buf c length k (T ++ hv) C
    else pure T

/-- `MGF1<Hash>::MGF` : include/caligo/rsa.h:23-52 -/
def mgfL (J : Junk) (buf : List Byte) (c : HashClass) (seed : List Byte) (length : Nat) : Leak (List Byte) := do
  emit (.branch (decide (0x100000000 < length)))
  if 0x100000000 < length then pure []
  else do
    let T ← mgfLoopL J buf c length length [] (seed ++ List.replicate 4 0#8)
    return T.take length

/-- `generatePssData<Hash>` : include/caligo/rsa.h:67-82 -/
def generatePssL (J : Junk) (buf : List Byte) (c : HashClass) (data salt : List Byte) (desiredLength : Nat) : Leak (List Byte) := do
  let H ← hashPiecesL J buf c [List.replicate 8 0#8, data, salt]
  let dbmask ← mgfL J buf c H (szSub (szSub desiredLength (hashsize c)) 1)
  let i := szSub (szSub dbmask.length salt.length) 1
  let a ← rdL dbmask i
  let dbmask ← wrL dbmask i (a ^^^ 0x01#8)
  let dbmask ← loopL salt.length dbmask (fun m n => do
    let j := (szSub m.length salt.length + n) % 2 ^ 64
    let a ← rdL m j
    let b ← rdL salt n
    wrL m j (a ^^^ b))
  emit (.addr dbmask.length)
  return dbmask ++ H ++ [0xbc#8]

/-- One pass of the loop of `bignum(std::span<const uint8_t>)` : include/caligo/bignum.h:61-63 -/
def ofByteL (data : List Byte) (v : List U32) (n : Nat) : Leak (List U32) := do
  let b ← rdL data n
  let w ← rdL v (n / 4)
  wrL v (n / 4) (w ||| (b.setWidth 32 <<< ((8 * n) % 32)))

/-- `bignum(std::span<const uint8_t>)` : include/caligo/bignum.h:58-64. Simplification: the two conditions of the loop are one event. -/
def bnOfBytesL (bits : Nat) (data : List Byte) : Leak (List U32) :=
  loopL (min data.length (bnN bits * 4)) (List.replicate (bnN bits) 0#32) (ofByteL data)

/-- `as_bytes` : include/caligo/bignum.h:117-126. Simplification: the four reads of a word are one event. -/
def bnAsBytesL (v : List U32) : Leak (List Byte) := do
  loopL v.length () (fun _ i => emit (.addr i))
  return bnAsBytes v

/-- `std::reverse` -/
def reverseL (v : List Byte) : Leak (List Byte) := do
  sweepL v.length
  return v.reverse

/-- Dropping high zero bytes: include/caligo/rsa.h:150; see `stripZeros`. The second condition is evaluated only if the first holds. -/
def stripZerosL : List Byte → Leak (List Byte)
  | [] => do
    emit (.addr (2 ^ 64 - 1))
    Leak.ofOut (.error .ub)
  | [a] => do
    emit (.addr 0)
    emit (.branch (decide (a = 0#8)))
    if a = 0#8 then do
      emit (.addr (2 ^ 64 - 1))
      Leak.ofOut (.error .ub)
    else pure [a]
  | a :: b :: t => do
    emit (.addr (t.length + 1))
    emit (.branch (decide (a = 0#8)))
    if a = 0#8 then do
      emit (.addr t.length)
      emit (.branch (decide (b &&& 0x80#8 = 0#8)))
      if b &&& 0x80#8 = 0#8 then stripZerosL (b :: t) else pure (a :: b :: t)
    else pure (a :: b :: t)

/-- `signPkcs1_5Signature` : include/caligo/rsa.h:145-153. The second `reverse` is done before the loop that drops bytes, as in `signPkcs1`; it has no events of its
own here. -/
def signPkcs1L (J : Junk) (buf : List Byte) (N : Nat) (k : RsaPriv) (c : HashClass) (data : List Byte) : Leak (List Byte) := do
  let hash ← pkcs1L J buf c data (k.actualN / 8)
  let hash ← reverseL hash
  let m ← bnOfBytesL N hash
  let r ← rsadpL N k m
  let s ← bnAsBytesL r
  let s ← stripZerosL s.reverse
  sweepL s.length
  return s

/-- `signPssSignature` : include/caligo/rsa.h:154-163 -/
def signPssL (J : Junk) (buf : List Byte) (N : Nat) (k : RsaPriv) (c : HashClass) (message salt : List Byte) : Leak (List Byte) := do
  let pssData ← generatePssL J buf c message salt (k.actualN / 8)
  let a ← rdL pssData 0
  let pssData ← wrL pssData 0 (a &&& 0x7F#8)
  let pssData ← reverseL pssData
  let m ← bnOfBytesL N pssData
  let r ← rsadpL N k m
  let s ← bnAsBytesL r
  reverseL (resize s (k.actualN / 8))

/-- `RsaPrivateKey::sign` : src/X509Certificate.cpp:73-100, with the salt that `generate_random` gives; see `rsaSign`. The label that the `switch` jumps to is one
event. -/
def rsaSignL (J : Junk) (k : RsaPriv) (scheme : Nat) (data salt : List Byte) : Leak (List Byte) := do
  emit (.addr scheme)
  let buf (c : HashClass) := List.replicate (bufSize c) 0#8
  if scheme = 0x0401 then signPkcs1L J (buf .sha2_256) 4096 k .sha2_256 data
  else if scheme = 0x0501 then signPkcs1L J (buf .sha2_384) 4096 k .sha2_384 data
  else if scheme = 0x0601 then signPkcs1L J (buf .sha2_512) 4096 k .sha2_512 data
  else if scheme = 0x0804 ∨ scheme = 0x0809 then do
    let h ← hashOfL J (buf .sha2_256) .sha2_256 data
    signPssL J (buf .sha2_256) 4096 k .sha2_256 h salt
  else if scheme = 0x0805 ∨ scheme = 0x080a then do
    let h ← hashOfL J (buf .sha2_256) .sha2_256 data
    signPssL J (buf .sha2_384) 4096 k .sha2_384 h salt
  else if scheme = 0x0806 ∨ scheme = 0x080b then do
    let h ← hashOfL J (buf .sha2_256) .sha2_256 data
    signPssL J (buf .sha2_512) 4096 k .sha2_512 h salt
  else pure []

end Verif.Model
