import Verif.Model.Simd

/-! `include/caligo/ghash.h`: bit reflection and multiplication in GF(2^128) with the carry-less multiply instruction. -/

namespace Verif.Model

/-- The constants `y0`, `x0` (include/caligo/ghash.h:8-9). -/
def reflY0 : M128 := packDwords 0x0F0F0F0F#32 0x0F0F0F0F#32 0x0F0F0F0F#32 0x0F0F0F0F#32
def reflX0 : M128 := packDwords 0xF0F0F0F0#32 0xF0F0F0F0#32 0xF0F0F0F0#32 0xF0F0F0F0#32
/-- The constants `y1`, `x1` (include/caligo/ghash.h:10-11). -/
def reflY1 : M128 := packDwords 0x33333333#32 0x33333333#32 0x33333333#32 0x33333333#32
def reflX1 : M128 := packDwords 0xCCCCCCCC#32 0xCCCCCCCC#32 0xCCCCCCCC#32 0xCCCCCCCC#32
/-- The constants `y2`, `x2` (include/caligo/ghash.h:12-13). -/
def reflY2 : M128 := packDwords 0x55555555#32 0x55555555#32 0x55555555#32 0x55555555#32
def reflX2 : M128 := packDwords 0xAAAAAAAA#32 0xAAAAAAAA#32 0xAAAAAAAA#32 0xAAAAAAAA#32

/-- `reflect` (include/caligo/ghash.h:7-18) -/
def reflect (v : M128) : M128 :=
  let v := (sarQ v 4 &&& reflY0) ||| (shlQ v 4 &&& reflX0)
  let v := (sarQ v 2 &&& reflY1) ||| (shlQ v 2 &&& reflX1)
  let v := (sarQ v 1 &&& reflY2) ||| (shlQ v 1 &&& reflX2)
  v

/-- `XMMMASK` (include/caligo/ghash.h:22) -/
def xmmMask : M128 := packDwords 0xffffffff#32 0x0#32 0x0#32 0x0#32

/-- The reduction at the end of `galoisMultiply` (include/caligo/ghash.h:28-32) of the 256-bit product `tmp6 : tmp3`. -/
def galoisReduce (tmp3 tmp6 : M128) : M128 :=
  let tmp8 := shuffleEpi32 (srliEpi32 tmp6 31 ^^^ srliEpi32 tmp6 30 ^^^ srliEpi32 tmp6 25) 0x93
  let tmp3 := tmp3 ^^^ andnot xmmMask tmp8
  let tmp6 := tmp6 ^^^ (xmmMask &&& tmp8)
  tmp3 ^^^ tmp6 ^^^ slliEpi32 tmp6 1 ^^^ slliEpi32 tmp6 2 ^^^ slliEpi32 tmp6 7

/-- `galoisMultiply` (include/caligo/ghash.h:20-33) -/
def galoisMultiply (a b : M128) : M128 :=
  let tmp3 := clmulEpi64 a b 0x00
  let tmp6 := clmulEpi64 a b 0x11
  let tmp4 := clmulEpi64 (shuffleEpi32 a 78 ^^^ a) (shuffleEpi32 b 78 ^^^ b) 0x00 ^^^ tmp3 ^^^ tmp6
  let tmp3 := tmp3 ^^^ slliSi tmp4 8
  let tmp6 := tmp6 ^^^ srliSi tmp4 8
  galoisReduce tmp3 tmp6

/-- `ghash_block` (include/caligo/ghash.h:35-37) -/
def ghashBlock (x h hash : M128) : M128 := galoisMultiply (hash ^^^ x) h

end Verif.Model
