import Verif.Model.Rsa

/-! Model of include/caligo/hkdf.h and of the part of include/caligo/key_iv_pair.h it uses. The templates over a hash class take its
`HashClass`; see Model/Rsa.lean for `hashOf`. `HKDF_UpdateSecret`, `exporter_master` and `resumption_master` (lines 89-102) are not modelled:
they cannot be instantiated (a `std::vector` does not initialise a `std::array`; the calls of `HKDF_Expand_Label` lack the template argument). -/

namespace Verif.Model

/-- `v.resize(n)` of a `std::vector<uint8_t>`: shrinks or appends zeroes. -/
def resizeTo (v : List Byte) (n : Nat) : List Byte := v.take n ++ List.replicate (n - v.length) 0#8

/-- `HMAC<Hash>` : include/caligo/hkdf.h:11-22 -/
def hmac (c : HashClass) (text key : List Byte) : List Byte :=
  let o := (resizeTo key (hashsize c * 2)).map (· ^^^ 0x5C#8)
  let i := (resizeTo key (hashsize c * 2)).map (· ^^^ 0x36#8)
  let h1 := hashOf c (i ++ text)
  hashOf c (o ++ h1)

/-- `HKDF_Extract<Hash>` : include/caligo/hkdf.h:24-27 -/
def hkdfExtract (c : HashClass) (salt ikm : List Byte) : List Byte := hmac c ikm salt

/-- The loop of `HKDF_Expand<Hash>` : include/caligo/hkdf.h:34-40. Every pass appends `hashsize` bytes, so `len` passes suffice. The `size_t`
`n` is converted to `uint8_t` by `push_back`. -/
def hkdfExpandLoop (c : HashClass) (prk info : List Byte) (len : Nat) : Nat → List Byte → List Byte → Nat → Out (List Byte)
  | 0, buffer, _, _ => if buffer.length < len then .error .diverges else .ok buffer
  | k + 1, buffer, lastT, n =>
    if buffer.length < len then
      let lastT := hmac c (lastT ++ info ++ [BitVec.ofNat 8 n]) prk
      hkdfExpandLoop c prk info len k (buffer ++ lastT) lastT (n + 1)
    else .ok buffer

/-- `HKDF_Expand<Hash>` : include/caligo/hkdf.h:29-43 -/
def hkdfExpand (c : HashClass) (prk info : List Byte) (len : Nat) : Out (List Byte) := do
  let buffer ← hkdfExpandLoop c prk info len len [] [] 1
  return resizeTo buffer len

/-- The vector `info` of `HKDF_Expand_Label` : include/caligo/hkdf.h:47-54 -/
def hkdfLabel (label context : List Byte) (len : Nat) : List Byte :=
  let l := ascii "tls13 " ++ label
  [BitVec.ofNat 8 ((len >>> 8) &&& 0xFF)] ++ [BitVec.ofNat 8 (len &&& 0xFF)] ++ [BitVec.ofNat 8 l.length] ++ l ++
    [BitVec.ofNat 8 context.length] ++ context

/-- `HKDF_Expand_Label<Hash>` : include/caligo/hkdf.h:45-56 -/
def hkdfExpandLabel (c : HashClass) (prk label context : List Byte) (len : Nat) : Out (List Byte) :=
  hkdfExpand c prk (hkdfLabel label context len) len

/-- `secret<Hash>::get_traffic_secret` : include/caligo/hkdf.h:61-64. `data` is the member of the same name (line 60). -/
def getTrafficSecret (c : HashClass) (data hashSoFar : List Byte) (client handshake : Bool) : Out (List Byte) :=
  let label := if client then (if handshake then ascii "c hs traffic" else ascii "c ap traffic")
    else (if handshake then ascii "s hs traffic" else ascii "s ap traffic")
  hkdfExpandLabel c data label hashSoFar (hashsize c)

/-- `secret<Hash>::get_key_iv<Cipher>` : include/caligo/hkdf.h:65-69 with include/caligo/key_iv_pair.h:10-15; `keysize` and `ivsize` are
constants of the cipher class. -/
def getKeyIv (c : HashClass) (keysize ivsize : Nat) (data hashSoFar : List Byte) (client handshake : Bool) : Out (List Byte × List Byte) := do
  let trafficSecret ← getTrafficSecret c data hashSoFar client handshake
  let key ← hkdfExpandLabel c trafficSecret (ascii "key") [] keysize
  let iv ← hkdfExpandLabel c trafficSecret (ascii "iv") [] ivsize
  return (key, iv)

/-- `secret<Hash>::get_finished_key` : include/caligo/hkdf.h:70-72 -/
def getFinishedKey (c : HashClass) (data hashSoFar : List Byte) (client : Bool) : Out (List Byte) := do
  let t ← getTrafficSecret c data hashSoFar client true
  hkdfExpandLabel c t (ascii "finished") [] (hashsize c)

/-- `HKDF_HandshakeSecret<Hash>` : include/caligo/hkdf.h:75-80. `Hash().data()` is the digest of nothing. -/
def hkdfHandshakeSecret (c : HashClass) (shared : List Byte) : Out (List Byte) := do
  let nothing := resizeTo [] (hashsize c)
  let d ← hkdfExpandLabel c (hkdfExtract c nothing nothing) (ascii "derived") (hdata c (hnew0 c)) (hashsize c)
  return hkdfExtract c d shared

/-- `HKDF_MasterSecret<Hash>` : include/caligo/hkdf.h:82-87 -/
def hkdfMasterSecret (c : HashClass) (data : List Byte) : Out (List Byte) := do
  let nothing := resizeTo [] (hashsize c)
  let d ← hkdfExpandLabel c data (ascii "derived") (hdata c (hnew0 c)) (hashsize c)
  return hkdfExtract c d nothing

end Verif.Model
