import Verif.Base.Basic

/-! Model of src/sha3.cpp and include/caligo/sha3.h. -/

namespace Verif.Model

/-- The members of `SHA3<size>`: include/caligo/sha3.h:47-48. `s` has 25 elements. -/
structure Sha3State where
  s : List U64
  msglength : U64

/-- `r / 8` for `r = 1600 - 2 * size`: include/caligo/sha3.h:14 -/
def sha3Rate (size : Nat) : Nat := (1600 - 2 * size) / 8

/-- constructor, `s()` zero-initialises the array: src/sha3.cpp:4-8 -/
def Sha3State.new : Sha3State := ⟨List.replicate 25 0#64, 0⟩

/-- `s[i] ^= v` -/
def xorAt (s : List U64) (i : Nat) (v : U64) : List U64 := s.set i (s.getD i 0#64 ^^^ v)

/-- theta: src/sha3.cpp:64-81 -/
def sha3Theta (s : List U64) : List U64 :=
  let c := (List.range 5).map (fun x => (List.range 5).foldl (fun (a : U64) y => a ^^^ s.getD (y * 5 + x) 0#64) 0#64)
  let d := (List.range 5).map (fun x =>
    (c.getD ((x + 1) % 5) 0#64 <<< 1) ^^^ (c.getD ((x + 1) % 5) 0#64 >>> 63) ^^^ c.getD ((x + 4) % 5) 0#64)
  (List.range 5).foldl (fun s x =>
    let s := xorAt s x (d.getD x 0#64)
    let s := xorAt s (x + 5) (d.getD x 0#64)
    let s := xorAt s (x + 10) (d.getD x 0#64)
    let s := xorAt s (x + 15) (d.getD x 0#64)
    xorAt s (x + 20) (d.getD x 0#64)) s

/-- The 23 assignments `s[dst] = (s[src] << l) | (s[src] >> r)` of src/sha3.cpp:85-107, in order. -/
def sha3Chain : List (Nat × Nat × Nat × Nat) := [
  (3, 18, 21, 43), (18, 17, 15, 49), (17, 11, 10, 54), (11, 7, 6, 58), (7, 10, 3, 61), (10, 1, 1, 63),
  (1, 6, 44, 20), (6, 9, 20, 44), (9, 22, 61, 3), (22, 14, 39, 25), (14, 20, 18, 46), (20, 2, 62, 2),
  (2, 12, 43, 21), (12, 13, 25, 39), (13, 19, 8, 56), (19, 23, 56, 8), (23, 15, 41, 23), (15, 4, 27, 37),
  (4, 24, 14, 50), (24, 21, 2, 62), (21, 8, 55, 9), (8, 16, 45, 19), (16, 5, 36, 28)]

/-- rho and pi: src/sha3.cpp:83-108. `t` is declared `int64_t`, which changes no bit. -/
def sha3RhoPi (s : List U64) : List U64 :=
  let t := (s.getD 3 0#64 <<< 28) ||| (s.getD 3 0#64 >>> 36)
  let s := sha3Chain.foldl (fun s (dst, src, l, r) =>
    s.set dst ((s.getD src 0#64 <<< l) ||| (s.getD src 0#64 >>> r))) s
  s.set 5 t

/-- chi: src/sha3.cpp:110-117 -/
def sha3Chi (s : List U64) : List U64 :=
  (List.range 5).foldl (fun s y =>
    let c := (List.range 5).map (fun x =>
      s.getD (y * 5 + x) 0#64 ^^^ (~~~ s.getD (5 * y + ((x + 1) % 5)) 0#64 &&& s.getD (5 * y + ((x + 2) % 5)) 0#64))
    (List.range 5).foldl (fun s x => s.set (y * 5 + x) (c.getD x 0#64)) s) s

/-- `SHA3RoundConstants[24]`: src/sha3.cpp:54-61 -/
def sha3RC : List U64 := [
  0x0000000000000001, 0x0000000000008082, 0x800000000000808A, 0x8000000080008000,
  0x000000000000808B, 0x0000000080000001, 0x8000000080008081, 0x8000000000008009,
  0x000000000000008A, 0x0000000000000088, 0x0000000080008009, 0x000000008000000A,
  0x000000008000808B, 0x800000000000008B, 0x8000000000008089, 0x8000000000008003,
  0x8000000000008002, 0x8000000000000080, 0x000000000000800A, 0x800000008000000A,
  0x8000000080008081, 0x8000000000008080, 0x0000000080000001, 0x8000000080008008]

/-- `processChunk`: src/sha3.cpp:52-122 -/
def sha3Process (s : List U64) : List U64 :=
  (List.range 24).foldl (fun s round => xorAt (sha3Chi (sha3RhoPi (sha3Theta s))) 0 (sha3RC.getD round 0#64)) s

/-- Body of the loop of `add`: src/sha3.cpp:15-22. The pair is `(s, offset)`. -/
def sha3AddByte (chunksize : Nat) (st : List U64 × Nat) (c : Byte) : List U64 × Nat :=
  let s := xorAt st.1 (st.2 / 8) (c.setWidth 64 <<< ((st.2 % 8) * 8))
  let offset := st.2 + 1
  if offset = chunksize then (sha3Process s, 0) else (s, offset)

/-- `add`: src/sha3.cpp:10-24 -/
def Sha3State.add (size : Nat) (st : Sha3State) (data : List Byte) : Sha3State :=
  let offset := st.msglength.toNat % sha3Rate size
  ⟨(data.foldl (sha3AddByte (sha3Rate size)) (st.s, offset)).1, st.msglength + BitVec.ofNat 64 data.length⟩

/-- Conversion to `std::array`, on a copy: src/sha3.cpp:26-39 -/
def Sha3State.data (size : Nat) (st : Sha3State) : List Byte :=
  let chunksize := sha3Rate size
  let offset := st.msglength.toNat % sha3Rate size
  let s := xorAt st.s (offset / 8) (0x06#64 <<< ((offset % 8) * 8))
  let s := xorAt s (chunksize / 8 - 1) 0x8000000000000000#64
  let s := sha3Process s
  (List.range (size / 8)).map (fun n => (s.getD (n / 8) 0#64 >>> (8 * (n % 8))).setWidth 8)

/-- Construct, add once, read. -/
def sha3Digest (size : Nat) (m : List Byte) : List Byte := (Sha3State.new.add size m).data size

end Verif.Model
