import Verif.Model.Random

/-! Model of include/caligo/random.h as built with `PLATFORM_HAS_RDSEED`. No build file of the repository defines that macro, and the operand
list of the `asm` statement in line 24 (an output constraint among the inputs) has to be corrected before a compiler accepts it. The model takes
the value that the instruction leaves in `value` as an argument. -/

namespace Verif.Model

/-- `generate_random_value` with `PLATFORM_HAS_RDSEED`: include/caligo/random.h:12-35; `value` is what `rdseed` delivers (line 24). The carry
flag, by which the instruction reports that it had nothing to deliver (it then stores 0), is not looked at. -/
def randValueSeeded (value : U64) (s : RandState) : U64 × RandState :=
  match s.testValues.getLast? with
  | some v => (v, { s with testValues := s.testValues.dropLast })
  | none =>
    let c0 := s.cval ^^^ (value &&& 0xFFFFFFFF#64)
    let c1 := lcgStep c0
    let rv := c1 &&& 0xFFFFFFFF00000000#64
    let c2 := c1 ^^^ (value >>> 32)
    let c3 := lcgStep c2
    (rv ||| ((c3 >>> 32) &&& 0xFFFFFFFF#64), { s with cval := c3 })

/-- `generate_random(std::span<uint64_t>)` in that build: include/caligo/random.h:37-41; one hardware value for each element. -/
def genRandomSeeded : List U64 → RandState → List U64 × RandState
  | [], s => ([], s)
  | v :: vs, s =>
    let (r, s) := randValueSeeded v s
    let (rs, s) := genRandomSeeded vs s
    (r :: rs, s)

end Verif.Model
