import Verif.Base.Basic

/-! Model of include/caligo/random.h and src/random.cpp, built without `PLATFORM_HAS_RDSEED`. -/

namespace Verif.Model

/-- The global state of the generator: `testValues` (src/random.cpp:5, the back of the vector is the last element) and the function-local
static `cval` (include/caligo/random.h:21). -/
structure RandState where
  testValues : List U64
  cval : U64
deriving DecidableEq, Repr

/-- The state of a fresh process: src/random.cpp:5, include/caligo/random.h:21 -/
def randInit : RandState := ⟨[], 0xa9782365ba09625b#64⟩

/-- `cval = (cval * A) + C` : include/caligo/random.h:19-20,27,32 -/
def lcgStep (cval : U64) : U64 := cval * 6364136223846793005#64 + 1442695040888963407#64

/-- `generate_random_value` : include/caligo/random.h:12-35 -/
def randValue (s : RandState) : U64 × RandState :=
  match s.testValues.getLast? with
  | some value => (value, { s with testValues := s.testValues.dropLast })
  | none =>
    let c1 := lcgStep s.cval
    let rv := c1 &&& 0xFFFFFFFF00000000#64
    let c2 := lcgStep c1
    (rv ||| ((c2 >>> 32) &&& 0xFFFFFFFF#64), { s with cval := c2 })

/-- `generate_random(std::span<uint64_t>)` : include/caligo/random.h:37-41; `n` is the size of the span, the result its new content. -/
def genRandom64 : Nat → RandState → List U64 × RandState
  | 0, s => ([], s)
  | n + 1, s =>
    let (v, s) := randValue s
    let (r, s) := genRandom64 n s
    (v :: r, s)

/-- The inner loop of the overloads for shorter elements: at most `per` elements of `b` bits are taken from `value`, `left` remain to be
filled. include/caligo/random.h:46-50, 57-61, 68-72 -/
def splitValue (b : Nat) : (per left : Nat) → U64 → List (BitVec b)
  | 0, _, _ => []
  | _, 0, _ => []
  | per + 1, left + 1, value => value.setWidth b :: splitValue b per left (value >>> b)

/-- The outer loop of `generate_random(std::span<uint32_t>)` (`b = 32, per = 2`), `std::span<uint16_t>` (16, 4), `std::span<uint8_t>` (8, 8):
include/caligo/random.h:43-74. `value & mask` converted to the element type is the truncation `setWidth`. -/
def genRandomB (b per : Nat) (left : Nat) (s : RandState) : List (BitVec b) × RandState :=
  if h : left = 0 ∨ per = 0 then ([], s)
  else
    let (v, s) := randValue s
    let (r, s) := genRandomB b per (left - per) s
    (splitValue b per left v ++ r, s)
termination_by left
decreasing_by omega

/-- include/caligo/random.h:43-52 -/
def genRandom32 (n : Nat) (s : RandState) : List U32 × RandState := genRandomB 32 2 n s
/-- include/caligo/random.h:54-63 -/
def genRandom16 (n : Nat) (s : RandState) : List U16 × RandState := genRandomB 16 4 n s
/-- include/caligo/random.h:65-74 -/
def genRandom8 (n : Nat) (s : RandState) : List Byte × RandState := genRandomB 8 8 n s

end Verif.Model
