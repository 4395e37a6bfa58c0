import Verif.Base.Basic
import Mathlib.Logic.Function.Basic

/-! RFC 8439, sections 2.1 to 2.4: the ChaCha20 stream cipher. Written from the RFC, independent of the model. -/

namespace Verif.Spec.ChaCha

/-- Section 2.1: the quarter round on four numbers. -/
def QR (a b c d : U32) : U32 × U32 × U32 × U32 :=
  let a := a + b; let d := (d ^^^ a).rotateLeft 16
  let c := c + d; let b := (b ^^^ c).rotateLeft 12
  let a := a + b; let d := (d ^^^ a).rotateLeft 8
  let c := c + d; let b := (b ^^^ c).rotateLeft 7
  (a, b, c, d)

/-- The state: sixteen words, indexed 0 to 15 (section 2.3). -/
abbrev State := Nat → U32

/-- Section 2.2: `QUARTERROUND(x, y, z, w)` on the state. -/
def quarterRound (s : State) (x y z w : Nat) : State :=
  let r := QR (s x) (s y) (s z) (s w)
  Function.update (Function.update (Function.update (Function.update s x r.1) y r.2.1) z r.2.2.1) w r.2.2.2

/-- Section 2.3.1, `inner_block`: a column round followed by a diagonal round. -/
def innerBlock (s : State) : State :=
  [(0, 4, 8, 12), (1, 5, 9, 13), (2, 6, 10, 14), (3, 7, 11, 15), (0, 5, 10, 15), (1, 6, 11, 12), (2, 7, 8, 13), (3, 4, 9, 14)].foldl
    (fun s q => quarterRound s q.1 q.2.1 q.2.2.1 q.2.2.2) s

/-- The number whose little-endian bytes are `b`. -/
def leNumber : List Byte → Nat
  | [] => 0
  | b :: r => b.toNat + 256 * leNumber r

/-- Word `i` of a byte string read as little-endian 32-bit integers. -/
def leWordAt (v : List Byte) (i : Nat) : U32 := BitVec.ofNat 32 (leNumber ((v.drop (4 * i)).take 4))

/-- Section 2.3: constants, key, block counter, nonce. The constants are the ASCII text "expand 32-byte k". -/
def initial (key : List Byte) (counter : U32) (nonce : List Byte) : State := fun i =>
  if i < 4 then leWordAt (ascii "expand 32-byte k") i
  else if i < 12 then leWordAt key (i - 4)
  else if i = 12 then counter
  else leWordAt nonce (i - 13)

/-- The four bytes of a word, least significant first. -/
def serializeWord (w : U32) : List Byte := (List.range 4).map (fun j => BitVec.ofNat 8 (w.toNat / 256 ^ j))

/-- Section 2.3.1, `chacha20_block`: 64 bytes. -/
def block (key : List Byte) (counter : U32) (nonce : List Byte) : List Byte :=
  let s := initial key counter nonce
  let t := innerBlock^[10] s
  (List.range 16).flatMap (fun i => serializeWord (t i + s i))

/-- Byte `i` of the key stream that starts at block counter `c` (section 2.4; the counter is a 32-bit number). -/
def keystream (key : List Byte) (c : Nat) (nonce : List Byte) (i : Nat) : Byte :=
  (block key (BitVec.ofNat 32 (c + i / 64)) nonce).getD (i % 64) 0#8

/-- Section 2.4: encryption and decryption of `data` with the key stream from byte `start` on. -/
def crypt (key : List Byte) (c : Nat) (nonce : List Byte) (start : Nat) (data : List Byte) : List Byte :=
  (List.range data.length).map (fun i => data.getD i 0#8 ^^^ keystream key c nonce (start + i))

end Verif.Spec.ChaCha
