import Verif.Base.Mem

/-! Model of include/caligo/chacha20.h. The indices into `s`, `state` and `buffer` inside the constructor and `GenerateBlock` are constants
or bounded by constant loops and stay inside the arrays of 16, 16 and 64 elements, so they are not checked; the index `offset` is. -/

namespace Verif.Model

/-- `struct ChaCha20` : include/caligo/chacha20.h:6-9 -/
structure ChaCha20 where
  state : List U32
  buffer : List Byte
  offset : Byte
deriving DecidableEq

/-- `key[i] | (key[i+1] << 8) | (key[i+2] << 16) | (key[i+3] << 24)` converted to `uint32_t`: include/caligo/chacha20.h:17-24, 26-28.
The shift of an `int` by 24 into the sign bit is defined since C++20. -/
def ccWord (v : List Byte) (i : Nat) : U32 :=
  (v.getD i 0#8).setWidth 32 ||| ((v.getD (i + 1) 0#8).setWidth 32 <<< 8) ||| ((v.getD (i + 2) 0#8).setWidth 32 <<< 16) |||
    ((v.getD (i + 3) 0#8).setWidth 32 <<< 24)

/-- `s[a] += s[b]; s[d] ^= s[a]; s[d] = ((s[d] << r) | (s[d] >> (32 - r)));` : the shape of every statement group of
include/caligo/chacha20.h:41-79 -/
def ccHalf (s : List U32) (a b d r : Nat) : List U32 :=
  let s := s.set a (s.getD a 0#32 + s.getD b 0#32)
  let s := s.set d (s.getD d 0#32 ^^^ s.getD a 0#32)
  s.set d ((s.getD d 0#32 <<< r) ||| (s.getD d 0#32 >>> (32 - r)))

/-- Four lines of the loop body, for example include/caligo/chacha20.h:41-44 with `a b c d` = `0 4 8 12`. -/
def ccQuarter (s : List U32) (a b c d : Nat) : List U32 :=
  let s := ccHalf s a b d 16
  let s := ccHalf s c d b 12
  let s := ccHalf s a b d 8
  ccHalf s c d b 7

/-- The loop body: include/caligo/chacha20.h:41-79 -/
def ccDouble (s : List U32) : List U32 :=
  let s := ccQuarter s 0 4 8 12
  let s := ccQuarter s 1 5 9 13
  let s := ccQuarter s 2 6 10 14
  let s := ccQuarter s 3 7 11 15
  let s := ccQuarter s 0 5 10 15
  let s := ccQuarter s 1 6 11 12
  let s := ccQuarter s 2 7 8 13
  ccQuarter s 3 4 9 14

/-- One pass of the output loop: include/caligo/chacha20.h:83-86, with the inner loop over `c` = 0, 8, 16, 24 written out. -/
def ccStore (state : List U32) (p : List U32 × List Byte) (n : Nat) : List U32 × List Byte :=
  let s := p.1.set n (p.1.getD n 0#32 + state.getD n 0#32)
  (s, [0, 8, 16, 24].foldl (fun buffer c => buffer.set (n * 4 + c / 8) ((s.getD n 0#32 >>> c).setWidth 8)) p.2)

/-- `GenerateBlock` : include/caligo/chacha20.h:32-90 -/
def ccGenerate (g : ChaCha20) : ChaCha20 :=
  let s := (List.range 10).foldl (fun s _ => ccDouble s) g.state
  { state := g.state.set 12 (g.state.getD 12 0#32 + 1#32)
    buffer := ((List.range 16).foldl (ccStore g.state) (s, g.buffer)).2
    offset := 0#8 }

/-- The constructor: include/caligo/chacha20.h:10-31. `junk` is what the uninitialised buffer holds. -/
def ccNew (junk key nonce : List Byte) : Out ChaCha20 :=
  if key.length ≠ 32 then .error .thrown
  else if nonce.length ≠ 12 then .error .thrown
  else .ok (ccGenerate
    { state := [0x61707865#32, 0x3320646e#32, 0x79622d32#32, 0x6b206574#32,
        ccWord key 0, ccWord key 4, ccWord key 8, ccWord key 12, ccWord key 16, ccWord key 20, ccWord key 24, ccWord key 28,
        1#32, ccWord nonce 0, ccWord nonce 4, ccWord nonce 8]
      buffer := junk
      offset := 0#8 })

/-- Loop body of `Encrypt` and of `Decrypt`: include/caligo/chacha20.h:93-96, 101-104 -/
def ccByte (g : ChaCha20) (c : Byte) : Out (Byte × ChaCha20) := do
  let k ← rd g.buffer g.offset.toNat
  let g := { g with offset := g.offset + 1#8 }
  return (c ^^^ k, if g.offset = 64#8 then ccGenerate g else g)

/-- `Encrypt` : include/caligo/chacha20.h:91-98 -/
def ccEncrypt (g : ChaCha20) : List Byte → Out (List Byte × ChaCha20)
  | [] => .ok ([], g)
  | c :: data => do
    let r ← ccByte g c
    let rest ← ccEncrypt r.2 data
    return (r.1 :: rest.1, rest.2)

/-- `Decrypt` : include/caligo/chacha20.h:99-106 -/
def ccDecrypt (g : ChaCha20) : List Byte → Out (List Byte × ChaCha20)
  | [] => .ok ([], g)
  | c :: data => do
    let r ← ccByte g c
    let rest ← ccDecrypt r.2 data
    return (r.1 :: rest.1, rest.2)

end Verif.Model
