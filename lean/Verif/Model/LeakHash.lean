import Verif.Model.Leak
import Verif.Model.Hkdf
import Verif.Model.ChaCha20

/-! The events (see `Model.Leak`) of the hash functions, HMAC, HKDF and ChaCha20. All array accesses are checked here, also those that the other model files take to be
inside their arrays. Simplifications: an element that occurs several times in one expression gives one event; `memcpy`, `insert` and `resize` give the index and the
number of the bytes. Arrays that the source leaves uninitialised start with the bytes or words `junk`. -/

namespace Verif.Model

/-- `memcpy(dst + off, src, src.size())` -/
def copyL (dst : List Byte) (off : Nat) (src : List Byte) : Leak (List Byte) :=
  (if off + src.length ≤ dst.length then .ok (overwrite dst off src) else .error .ub, [.addr off, .addr src.length])

/-- Accesses to the elements with the indices below `n`, one after the other. -/
def touch (n : Nat) : Leak Unit := (.ok (), (List.range n).map .addr)

/-! ### src/md5.cpp, src/sha1.cpp, src/sha2.cpp -/

/-- The loop body of `MD5::processChunk` : src/md5.cpp:101-123. The branches depend on the loop counter. -/
def md5StepL (chunk : List Byte) (st : Md5H) (i : Nat) : Leak Md5H := do
  emit (.branch (i < 16))
  emit (.branch (i < 32))
  emit (.branch (i < 48))
  let g := if i < 16 then i else if i < 32 then (5 * i + 1) % 16 else if i < 48 then (3 * i + 5) % 16 else (7 * i) % 16
  let _ ← rdL chunk (4 * g)
  let _ ← rdL chunk (4 * g + 1)
  let _ ← rdL chunk (4 * g + 2)
  let _ ← rdL chunk (4 * g + 3)
  let _ ← rdL md5K i
  let _ ← rdL md5s i
  return md5Step chunk i st

/-- `MD5::processChunk` : src/md5.cpp:99-127 -/
def md5CompressL (h : Md5H) (chunk : List Byte) : Leak Md5H := do
  touch 4
  let (a, b, c, d) ← loopL 64 h (md5StepL chunk)
  touch 4
  return (h.1 + a, h.2.1 + b, h.2.2.1 + c, h.2.2.2 + d)

/-- The first two loops of `SHA1::processChunk` : src/sha1.cpp:75-85 -/
def sha1WL (junk : List U32) (chunk : List Byte) : Leak (List U32) := do
  let w ← loopL 16 junk (fun w n => do
    let v ← loopL 4 0#32 (fun v i => do
      let x ← rdL chunk (4 * n + i)
      return (v <<< 8) ||| x.setWidth 32)
    wrL w n v)
  loopL 64 w (fun w n => do
    let a ← rdL w (16 + n - 3)
    let b ← rdL w (16 + n - 8)
    let c ← rdL w (16 + n - 14)
    let d ← rdL w (16 + n - 16)
    wrL w (16 + n) (rotate (a ^^^ b ^^^ c ^^^ d) 1))

/-- `SHA1::processChunk` : src/sha1.cpp:74-104. The ends of the first three round loops are noted at the end. -/
def sha1CompressL (junk : List U32) (h : Sha1H) (chunk : List Byte) : Leak Sha1H := do
  let w ← sha1WL junk chunk
  touch 5
  let (a, b, c, d, e) ← loopL 80 h (fun st i => do
    let _ ← rdL w i
    return sha1Step w st i)
  emit (.branch false)
  emit (.branch false)
  emit (.branch false)
  touch 5
  return (h.1 + a, h.2.1 + b, h.2.2.1 + c, h.2.2.2.1 + d, h.2.2.2.2 + e)

/-- The first two loops of `SHA2<256>::processChunk` : src/sha2.cpp:57-63 -/
def sha256WL (junk : List U32) (chunk : List Byte) : Leak (List U32) := do
  let W ← loopL 16 junk (fun W t => do
    let a ← rdL chunk (t * 4)
    let b ← rdL chunk (t * 4 + 1)
    let c ← rdL chunk (t * 4 + 2)
    let d ← rdL chunk (t * 4 + 3)
    wrL W t ((a.setWidth 32 <<< 24) + (b.setWidth 32 <<< 16) + (c.setWidth 32 <<< 8) + d.setWidth 32))
  loopL 48 W (fun W n => do
    let a ← rdL W (16 + n - 2)
    let b ← rdL W (16 + n - 15)
    let c ← rdL W (16 + n - 7)
    let d ← rdL W (16 + n - 16)
    wrL W (16 + n) ((rotr32 a 17 ^^^ rotr32 a 19 ^^^ (a >>> 10)) + (rotr32 b 7 ^^^ rotr32 b 18 ^^^ (b >>> 3)) + c + d))

/-- `SHA2<256>::processChunk` : src/sha2.cpp:56-86 -/
def sha256CompressL (junk : List U32) (w : Sha2H 32) (chunk : List Byte) : Leak (Sha2H 32) := do
  let W ← sha256WL junk chunk
  touch 8
  let v ← loopL 64 w (fun st t => do
    let _ ← rdL K256 t
    let _ ← rdL W t
    return sha256Step W st t)
  touch 8
  return sha2Add w v

/-- The first two loops of `SHA2<512>::processChunk` : src/sha2.cpp:182-195 -/
def sha512WL (junk : List U64) (chunk : List Byte) : Leak (List U64) := do
  let W ← loopL 16 junk (fun W t => do
    let a ← rdL chunk (t * 8)
    let b ← rdL chunk (t * 8 + 1)
    let c ← rdL chunk (t * 8 + 2)
    let d ← rdL chunk (t * 8 + 3)
    let e ← rdL chunk (t * 8 + 4)
    let f ← rdL chunk (t * 8 + 5)
    let g ← rdL chunk (t * 8 + 6)
    let h ← rdL chunk (t * 8 + 7)
    wrL W t ((a.setWidth 64 <<< 56) + (b.setWidth 64 <<< 48) + (c.setWidth 64 <<< 40) + (d.setWidth 64 <<< 32) + (e.setWidth 64 <<< 24) +
      (f.setWidth 64 <<< 16) + (g.setWidth 64 <<< 8) + (h.setWidth 64 <<< 0)))
  loopL 64 W (fun W n => do
    let a ← rdL W (16 + n - 2)
    let b ← rdL W (16 + n - 15)
    let c ← rdL W (16 + n - 7)
    let d ← rdL W (16 + n - 16)
    wrL W (16 + n) ((rotr64 a 19 ^^^ rotr64 a 61 ^^^ (a >>> 6)) + (rotr64 b 1 ^^^ rotr64 b 8 ^^^ (b >>> 7)) + c + d))

/-- `SHA2<512>::processChunk` : src/sha2.cpp:159-218 -/
def sha512CompressL (junk : List U64) (w : Sha2H 64) (chunk : List Byte) : Leak (Sha2H 64) := do
  let W ← sha512WL junk chunk
  touch 8
  let v ← loopL 80 w (fun st t => do
    let _ ← rdL K512 t
    let _ ← rdL W t
    return sha512Step W st t)
  touch 8
  return sha2Add w v

/-- A block hash class with events: `processChunk` and the output loop. -/
structure BlockAlgL (A : BlockAlg) where
  compress : A.σ → List Byte → Leak A.σ
  out : A.σ → Leak (List Byte)

/-- The two nested output loops over `words` words of `size` bytes : src/md5.cpp:76-82, src/sha1.cpp:51-57, src/sha2.cpp:101-107,233-239 -/
def outLoopsL (words size : Nat) : Leak Unit :=
  loopL words () (fun _ i => loopL size () (fun _ j => do
    emit (.addr i)
    emit (.addr (j + size * i))))

/-- `MD5` -/
def md5L : BlockAlgL md5 := ⟨md5CompressL, fun h => do outLoopsL 4 4; return md5Out h⟩
/-- `SHA1` -/
def sha1L (junk : List U32) : BlockAlgL sha1 := ⟨sha1CompressL junk, fun h => do outLoopsL 5 4; return sha1Out h⟩
/-- `SHA2<224>`; `data()` copies 28 bytes (include/caligo/sha2.h:60-66). -/
def sha224L (junk : List U32) : BlockAlgL sha224 := ⟨sha256CompressL junk, fun h => do outLoopsL 8 4; emit (.addr 28); return (sha256Out h).take 28⟩
/-- `SHA2<256>` -/
def sha256L (junk : List U32) : BlockAlgL sha256 := ⟨sha256CompressL junk, fun h => do outLoopsL 8 4; return sha256Out h⟩
/-- `SHA2<384>`; `data()` copies 48 bytes (include/caligo/sha2.h:123-129). -/
def sha384L (junk : List U64) : BlockAlgL sha384 := ⟨sha512CompressL junk, fun h => do outLoopsL 8 8; emit (.addr 48); return (sha512Out h).take 48⟩
/-- `SHA2<512>` -/
def sha512L (junk : List U64) : BlockAlgL sha512 := ⟨sha512CompressL junk, fun h => do outLoopsL 8 8; return sha512Out h⟩

section
variable {A : BlockAlg}

/-- The `while` loop and the end of `add` : src/md5.cpp:54-60, src/sha1.cpp:29-35, src/sha2.cpp:32-38 and 146-152 -/
def blockLoopL (L : BlockAlgL A) (s : BlockState A) (rest : List Byte) : Leak (BlockState A) :=
  if A.B ≤ rest.length then do
    emit (.branch true)
    let chunk ← copyL s.chunk 0 (rest.take A.B)
    let h ← L.compress s.h chunk
    blockLoopL L ⟨h, chunk, s.msglength⟩ (rest.drop A.B)
  else do
    emit (.branch false)
    emit (.branch (rest.length ≠ 0))
    if rest.length ≠ 0 then
      let chunk ← copyL s.chunk 0 rest
      return { s with chunk := chunk }
    else
      return s
termination_by rest.length
decreasing_by
  have := A.Bpos
  simp only [List.length_drop]; omega

/-- `add` : src/md5.cpp:39-61, src/sha1.cpp:14-36, src/sha2.cpp:17-39 and 131-153, with the choice in `std::min` -/
def blockAddL (L : BlockAlgL A) (s : BlockState A) (data : List Byte) : Leak (BlockState A) := do
  let offset := s.msglength.toNat % A.B
  let s := { s with msglength := s.msglength + BitVec.ofNat 64 data.length }
  emit (.branch (offset ≠ 0))
  if offset ≠ 0 then
    let copyNow := min data.length (A.B - offset)
    emit (.pick (A.B - offset < data.length))
    let chunk ← copyL s.chunk offset (data.take copyNow)
    emit (.branch (offset + copyNow ≠ A.B))
    if offset + copyNow ≠ A.B then
      return { s with chunk := chunk }
    else
      let h ← L.compress s.h chunk
      blockLoopL L ⟨h, chunk, s.msglength⟩ (data.drop copyNow)
  else
    blockLoopL L s data

/-- The loop that writes the length field : src/md5.cpp:69-74, src/sha1.cpp:44-49, src/sha2.cpp:94-99 and 226-231 -/
def lenFieldL (A : BlockAlg) (msglength : U64) : Leak (List Byte) := do
  let p ← loopL A.L (List.replicate A.L 0#8, msglength * 8) (fun p n => do
    let v ← wrL p.1 (if A.littleEndian then n else A.L - 1 - n) (p.2.setWidth 8)
    return (v, p.2 >>> 8))
  return p.1

/-- Conversion to `std::array` : src/md5.cpp:63-83, src/sha1.cpp:38-58, src/sha2.cpp:88-108 and 220-240 -/
def blockDataL (L : BlockAlgL A) (s : BlockState A) : Leak (List Byte) := do
  let padsize := A.B - (s.msglength + BitVec.ofNat 64 A.L).toNat % A.B
  let zeroes : List Byte := 0x80#8 :: List.replicate A.B 0#8
  let copy ← blockAddL L s (zeroes.take padsize)
  let field ← lenFieldL A s.msglength
  let copy ← blockAddL L copy field
  L.out copy.h

end

/-! ### src/sha3.cpp -/

/-- `s[i] ^= v` -/
def xorAtL (s : List U64) (i : Nat) (v : U64) : Leak (List U64) := do
  let x ← rdL s i
  wrL s i (x ^^^ v)

/-- theta: src/sha3.cpp:64-81 -/
def sha3ThetaL (junk : List U64) (s : List U64) : Leak (List U64) := do
  let c ← loopL 5 junk (fun c x => do
    let c ← wrL c x 0#64
    loopL 5 c (fun c y => do
      let v ← rdL s (y * 5 + x)
      xorAtL c x v))
  let d ← loopL 5 junk (fun d x => do
    let u ← rdL c ((x + 1) % 5)
    let v ← rdL c ((x + 4) % 5)
    wrL d x ((u <<< 1) ^^^ (u >>> 63) ^^^ v))
  loopL 5 s (fun s x => do
    let v ← rdL d x
    let s ← xorAtL s x v
    let s ← xorAtL s (x + 5) v
    let s ← xorAtL s (x + 10) v
    let s ← xorAtL s (x + 15) v
    xorAtL s (x + 20) v)

/-- The assignments of src/sha3.cpp:85-107, one after the other. -/
def sha3ChainL : List (Nat × Nat × Nat × Nat) → List U64 → Leak (List U64)
  | [], s => return s
  | (dst, src, l, r) :: ops, s => do
    let v ← rdL s src
    let s ← wrL s dst ((v <<< l) ||| (v >>> r))
    sha3ChainL ops s

/-- rho and pi: src/sha3.cpp:83-108 -/
def sha3RhoPiL (s : List U64) : Leak (List U64) := do
  let v ← rdL s 3
  let s ← sha3ChainL sha3Chain s
  wrL s 5 ((v <<< 28) ||| (v >>> 36))

/-- chi: src/sha3.cpp:110-117 -/
def sha3ChiL (junk : List U64) (s : List U64) : Leak (List U64) :=
  loopL 5 s (fun s y => do
    let c ← loopL 5 junk (fun c x => do
      let u ← rdL s (y * 5 + x)
      let v ← rdL s (5 * y + ((x + 1) % 5))
      let w ← rdL s (5 * y + ((x + 2) % 5))
      wrL c x (u ^^^ (~~~ v &&& w)))
    loopL 5 s (fun s x => do
      let v ← rdL c x
      wrL s (y * 5 + x) v))

/-- `processChunk`: src/sha3.cpp:52-122 -/
def sha3ProcessL (junk : List U64) (s : List U64) : Leak (List U64) :=
  loopL 24 s (fun s round => do
    let s ← sha3ThetaL junk s
    let s ← sha3RhoPiL s
    let s ← sha3ChiL junk s
    let k ← rdL sha3RC round
    xorAtL s 0 k)

/-- The loop of `add`: src/sha3.cpp:15-22 -/
def sha3BytesL (junk : List U64) (chunksize : Nat) : List Byte → List U64 → Nat → Leak (List U64)
  | [], s, _ => do
    emit (.branch false)
    return s
  | c :: data, s, offset => do
    emit (.branch true)
    let s ← xorAtL s (offset / 8) (c.setWidth 64 <<< ((offset % 8) * 8))
    emit (.branch (offset + 1 = chunksize))
    if offset + 1 = chunksize then
      let s ← sha3ProcessL junk s
      sha3BytesL junk chunksize data s 0
    else
      sha3BytesL junk chunksize data s (offset + 1)

/-- `add`: src/sha3.cpp:10-24 -/
def sha3AddL (junk : List U64) (size : Nat) (st : Sha3State) (data : List Byte) : Leak Sha3State := do
  let s ← sha3BytesL junk (sha3Rate size) data st.s (st.msglength.toNat % sha3Rate size)
  return ⟨s, st.msglength + BitVec.ofNat 64 data.length⟩

/-- Conversion to `std::array`: src/sha3.cpp:26-39 -/
def sha3DataL (junk : List U64) (size : Nat) (st : Sha3State) : Leak (List Byte) := do
  let offset := st.msglength.toNat % sha3Rate size
  let s ← xorAtL st.s (offset / 8) (0x06#64 <<< ((offset % 8) * 8))
  let s ← xorAtL s (sha3Rate size / 8 - 1) 0x8000000000000000#64
  let s ← sha3ProcessL junk s
  loopL (size / 8) (List.replicate (size / 8) 0#8) (fun rv n => do
    let v ← rdL s (n / 8)
    wrL rv n ((v >>> (8 * (n % 8))).setWidth 8))

/-! ### the classes -/

/-- The loop of `CRC32::add` : src/crc.cpp:49-53. The index into the table depends on the data. -/
def crcAddL (h : U32) : List Byte → Leak U32
  | [] => do
    emit (.branch false)
    return h
  | b :: data => do
    emit (.branch true)
    let t ← rdL crcTable ((h ^^^ b.setWidth 32) &&& 0xFF#32).toNat
    crcAddL ((h >>> 8) ^^^ t) data

/-- What uninitialised local arrays hold: 80 words of 32 bits, of which SHA-256 uses 64, 80 words of 64 bits, five words for SHA-3. -/
structure Junk where
  w32 : List U32
  w64 : List U64
  w5 : List U64

/-- `H(data).data()` : constructor, `add`, conversion to `std::array` of each class; see `hnew`, `hadd`, `hdata`. `buf` is what the uninitialised buffer holds. -/
def hashOfL (J : Junk) (buf : List Byte) (c : HashClass) (data : List Byte) : Leak (List Byte) :=
  match c with
  | .md5 => do
    touch 4
    let s ← blockAddL md5L (BlockState.new md5 buf) data
    blockDataL md5L s
  | .sha1 => do
    touch 5
    let s ← blockAddL (sha1L J.w32) (BlockState.new sha1 buf) data
    blockDataL (sha1L J.w32) s
  | .sha2_224 => do
    touch 8
    let s ← blockAddL (sha224L (J.w32.take 64)) (BlockState.new sha224 buf) data
    blockDataL (sha224L (J.w32.take 64)) s
  | .sha2_256 => do
    touch 8
    let s ← blockAddL (sha256L (J.w32.take 64)) (BlockState.new sha256 buf) data
    blockDataL (sha256L (J.w32.take 64)) s
  | .sha2_384 => do
    touch 8
    let s ← blockAddL (sha384L J.w64) (BlockState.new sha384 buf) data
    blockDataL (sha384L J.w64) s
  | .sha2_512 => do
    touch 8
    let s ← blockAddL (sha512L J.w64) (BlockState.new sha512 buf) data
    blockDataL (sha512L J.w64) s
  | .sha3_224 => do
    let s ← sha3AddL J.w5 224 Sha3State.new data
    sha3DataL J.w5 224 s
  | .sha3_256 => do
    let s ← sha3AddL J.w5 256 Sha3State.new data
    sha3DataL J.w5 256 s
  | .sha3_384 => do
    let s ← sha3AddL J.w5 384 Sha3State.new data
    sha3DataL J.w5 384 s
  | .sha3_512 => do
    let s ← sha3AddL J.w5 512 Sha3State.new data
    sha3DataL J.w5 512 s
  | .crc32 => do
    let h ← crcAddL crcNew data
    touch 4
    return crcData h

/-! ### include/caligo/hkdf.h -/

/-- `for (auto& c : v) c ^= k` over `n` elements -/
def sweepL (n : Nat) : Leak Unit := loopL n () (fun _ i => emit (.addr i))

/-- `HMAC<Hash>` : include/caligo/hkdf.h:11-22 -/
def hmacL (J : Junk) (buf : List Byte) (c : HashClass) (text key : List Byte) : Leak (List Byte) := do
  emit (.addr key.length)
  emit (.addr key.length)
  emit (.addr (hashsize c * 2))
  emit (.addr (hashsize c * 2))
  let o := (resizeTo key (hashsize c * 2)).map (· ^^^ 0x5C#8)
  sweepL (hashsize c * 2)
  let i := (resizeTo key (hashsize c * 2)).map (· ^^^ 0x36#8)
  sweepL (hashsize c * 2)
  emit (.addr text.length)
  let h1 ← hashOfL J buf c (i ++ text)
  emit (.addr h1.length)
  hashOfL J buf c (o ++ h1)

/-- `HKDF_Extract<Hash>` : include/caligo/hkdf.h:24-27 -/
def hkdfExtractL (J : Junk) (buf : List Byte) (c : HashClass) (salt ikm : List Byte) : Leak (List Byte) := hmacL J buf c ikm salt

/-- The loop of `HKDF_Expand<Hash>` : include/caligo/hkdf.h:34-40 -/
def hkdfExpandLoopL (J : Junk) (buf : List Byte) (c : HashClass) (prk info : List Byte) (len : Nat) : Nat → List Byte → List Byte → Nat → Leak (List Byte)
  | 0, buffer, _, _ => Leak.ofOut (if buffer.length < len then .error .diverges else .ok buffer)
  | k + 1, buffer, lastT, n => do
    emit (.branch (buffer.length < len))
    if buffer.length < len then
      emit (.addr info.length)
      emit (.addr 1)
      let lastT ← hmacL J buf c (lastT ++ info ++ [BitVec.ofNat 8 n]) prk
      emit (.addr lastT.length)
      hkdfExpandLoopL J buf c prk info len k (buffer ++ lastT) lastT (n + 1)
    else
      return buffer

/-- `HKDF_Expand<Hash>` : include/caligo/hkdf.h:29-43 -/
def hkdfExpandL (J : Junk) (buf : List Byte) (c : HashClass) (prk info : List Byte) (len : Nat) : Leak (List Byte) := do
  let buffer ← hkdfExpandLoopL J buf c prk info len len [] [] 1
  emit (.addr len)
  return resizeTo buffer len

/-- `HKDF_Expand_Label<Hash>` : include/caligo/hkdf.h:45-56 -/
def hkdfExpandLabelL (J : Junk) (buf : List Byte) (c : HashClass) (prk label context : List Byte) (len : Nat) : Leak (List Byte) := do
  emit (.addr label.length)
  emit (.addr context.length)
  hkdfExpandL J buf c prk (hkdfLabel label context len) len

/-- `secret<Hash>::get_traffic_secret` : include/caligo/hkdf.h:61-64 -/
def getTrafficSecretL (J : Junk) (buf : List Byte) (c : HashClass) (data hashSoFar : List Byte) (client handshake : Bool) : Leak (List Byte) := do
  emit (.pick client)
  emit (.pick handshake)
  let label := if client then (if handshake then ascii "c hs traffic" else ascii "c ap traffic")
    else (if handshake then ascii "s hs traffic" else ascii "s ap traffic")
  hkdfExpandLabelL J buf c data label hashSoFar (hashsize c)

/-- `secret<Hash>::get_key_iv<Cipher>` : include/caligo/hkdf.h:65-69 -/
def getKeyIvL (J : Junk) (buf : List Byte) (c : HashClass) (keysize ivsize : Nat) (data hashSoFar : List Byte) (client handshake : Bool) : Leak (List Byte × List Byte) := do
  let trafficSecret ← getTrafficSecretL J buf c data hashSoFar client handshake
  let key ← hkdfExpandLabelL J buf c trafficSecret (ascii "key") [] keysize
  let iv ← hkdfExpandLabelL J buf c trafficSecret (ascii "iv") [] ivsize
  return (key, iv)

/-- `secret<Hash>::get_finished_key` : include/caligo/hkdf.h:70-72 -/
def getFinishedKeyL (J : Junk) (buf : List Byte) (c : HashClass) (data hashSoFar : List Byte) (client : Bool) : Leak (List Byte) := do
  let t ← getTrafficSecretL J buf c data hashSoFar client true
  hkdfExpandLabelL J buf c t (ascii "finished") [] (hashsize c)

/-- `HKDF_HandshakeSecret<Hash>` : include/caligo/hkdf.h:75-80. `Hash().data()` is taken as the digest of an empty span: `add` of nothing is at most one
loop test. -/
def hkdfHandshakeSecretL (J : Junk) (buf : List Byte) (c : HashClass) (shared : List Byte) : Leak (List Byte) := do
  let nothing := resizeTo [] (hashsize c)
  let early ← hkdfExtractL J buf c nothing nothing
  let empty ← hashOfL J buf c []
  let d ← hkdfExpandLabelL J buf c early (ascii "derived") empty (hashsize c)
  hkdfExtractL J buf c d shared

/-- `HKDF_MasterSecret<Hash>` : include/caligo/hkdf.h:82-87; see `hkdfHandshakeSecretL` for `Hash().data()`. -/
def hkdfMasterSecretL (J : Junk) (buf : List Byte) (c : HashClass) (data : List Byte) : Leak (List Byte) := do
  let nothing := resizeTo [] (hashsize c)
  let empty ← hashOfL J buf c []
  let d ← hkdfExpandLabelL J buf c data (ascii "derived") empty (hashsize c)
  hkdfExtractL J buf c d nothing

/-! ### include/caligo/chacha20.h -/

/-- `s[a] += s[b]; s[d] ^= s[a]; s[d] = ((s[d] << r) | (s[d] >> (32 - r)));` : include/caligo/chacha20.h:41-79 -/
def ccHalfL (s : List U32) (a b d r : Nat) : Leak (List U32) := do
  let x ← rdL s a
  let y ← rdL s b
  let s ← wrL s a (x + y)
  let x ← rdL s d
  let y ← rdL s a
  let s ← wrL s d (x ^^^ y)
  let x ← rdL s d
  wrL s d ((x <<< r) ||| (x >>> (32 - r)))

/-- Four lines of the loop body: include/caligo/chacha20.h:41-44 -/
def ccQuarterL (s : List U32) (a b c d : Nat) : Leak (List U32) := do
  let s ← ccHalfL s a b d 16
  let s ← ccHalfL s c d b 12
  let s ← ccHalfL s a b d 8
  ccHalfL s c d b 7

/-- The loop body: include/caligo/chacha20.h:41-79 -/
def ccDoubleL (s : List U32) : Leak (List U32) := do
  let s ← ccQuarterL s 0 4 8 12
  let s ← ccQuarterL s 1 5 9 13
  let s ← ccQuarterL s 2 6 10 14
  let s ← ccQuarterL s 3 7 11 15
  let s ← ccQuarterL s 0 5 10 15
  let s ← ccQuarterL s 1 6 11 12
  let s ← ccQuarterL s 2 7 8 13
  ccQuarterL s 3 4 9 14

/-- One pass of the output loop: include/caligo/chacha20.h:82-87 -/
def ccStoreL (state : List U32) (p : List U32 × List Byte) (n : Nat) : Leak (List U32 × List Byte) := do
  let x ← rdL p.1 n
  let y ← rdL state n
  let s ← wrL p.1 n (x + y)
  let b ← loopL 4 p.2 (fun b i => do
    let w ← rdL s n
    wrL b (n * 4 + i) ((w >>> (8 * i)).setWidth 8))
  return (s, b)

/-- `GenerateBlock` : include/caligo/chacha20.h:32-90 -/
def ccGenerateL (g : ChaCha20) : Leak ChaCha20 := do
  touch 16
  let s ← loopL 10 g.state (fun s _ => ccDoubleL s)
  let p ← loopL 16 (s, g.buffer) (ccStoreL g.state)
  let c ← rdL g.state 12
  let st ← wrL g.state 12 (c + 1#32)
  return { state := st, buffer := p.2, offset := 0#8 }

/-- The constructor: include/caligo/chacha20.h:10-31 -/
def ccNewL (junk key nonce : List Byte) : Leak ChaCha20 := do
  emit (.branch (key.length ≠ 32))
  if key.length ≠ 32 then Leak.ofOut (.error .thrown) else
  emit (.branch (nonce.length ≠ 12))
  if nonce.length ≠ 12 then Leak.ofOut (.error .thrown) else
  touch 32
  touch 12
  touch 16
  ccGenerateL
    { state := [0x61707865#32, 0x3320646e#32, 0x79622d32#32, 0x6b206574#32,
        ccWord key 0, ccWord key 4, ccWord key 8, ccWord key 12, ccWord key 16, ccWord key 20, ccWord key 24, ccWord key 28,
        1#32, ccWord nonce 0, ccWord nonce 4, ccWord nonce 8]
      buffer := junk
      offset := 0#8 }

/-- `Encrypt` and `Decrypt` : include/caligo/chacha20.h:91-106 -/
def ccCryptL (g : ChaCha20) : List Byte → Leak (List Byte × ChaCha20)
  | [] => do
    emit (.branch false)
    return ([], g)
  | c :: data => do
    emit (.branch true)
    let k ← rdL g.buffer g.offset.toNat
    let g := { g with offset := g.offset + 1#8 }
    emit (.branch (g.offset = 64#8))
    let g ← if g.offset = 64#8 then ccGenerateL g else pure g
    let rest ← ccCryptL g data
    return ((c ^^^ k) :: rest.1, rest.2)

end Verif.Model
