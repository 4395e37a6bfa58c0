import Verif.Model.Leak
import Verif.Model.Base64

/-! The events (see `Model.Leak`) of src/base64.cpp. All table accesses are checked. A `switch` gives one branch for every case that does something. -/

namespace Verif.Model

/-- `encodingOf[x & 0x3F]` -/
def encAtL (encodingOf : List Byte) (x : U32) : Leak Byte := rdL encodingOf (x &&& 0x3F#32).toNat

/-- The loop of `base64` : src/base64.cpp:40-57 -/
def b64LoopL (encodingOf : List Byte) (withNewlines : Bool) (st : B64State) : List Byte → Leak B64State
  | [] => do
    emit (.branch false)
    return st
  | b :: data => do
    emit (.branch true)
    let value := (st.value <<< 8) ||| b.setWidth 32
    emit (.branch (st.count + 1 = 3))
    if st.count + 1 = 3 then
      let e1 ← encAtL encodingOf (value >>> 18)
      let e2 ← encAtL encodingOf (value >>> 12)
      let e3 ← encAtL encodingOf (value >>> 6)
      let e4 ← encAtL encodingOf (value >>> 0)
      let out := st.out ++ [e1, e2, e3, e4]
      emit (.branch (st.blocksOnLine + 1 = 19))
      if st.blocksOnLine + 1 = 19 then
        emit (.branch withNewlines)
        b64LoopL encodingOf withNewlines ⟨if withNewlines then out ++ [0x0a#8] else out, value, 0, 0⟩ data
      else
        b64LoopL encodingOf withNewlines ⟨out, value, 0, st.blocksOnLine + 1⟩ data
    else
      b64LoopL encodingOf withNewlines { st with value := value, count := st.count + 1 } data

/-- The end of `base64` : src/base64.cpp:58-81 -/
def b64FinishL (encodingOf : List Byte) (withNewlines omitEqs : Bool) (st : B64State) : Leak (List Byte) := do
  emit (.branch (st.count = 1))
  if st.count = 1 then
    let e1 ← encAtL encodingOf (st.value >>> 2)
    let e2 ← encAtL encodingOf (st.value <<< 4)
    emit (.branch omitEqs)
    emit (.branch withNewlines)
    let out := st.out ++ [e1, e2] ++ (if !omitEqs then [0x3d#8, 0x3d#8] else [])
    return if withNewlines then out ++ [0x0a#8] else out
  else
    emit (.branch (st.count = 2))
    if st.count = 2 then
      let e1 ← encAtL encodingOf (st.value >>> 10)
      let e2 ← encAtL encodingOf (st.value >>> 4)
      let e3 ← encAtL encodingOf (st.value <<< 2)
      emit (.branch omitEqs)
      emit (.branch withNewlines)
      let out := st.out ++ [e1, e2, e3] ++ (if !omitEqs then [0x3d#8] else [])
      return if withNewlines then out ++ [0x0a#8] else out
    else
      emit (.branch withNewlines)
      return if withNewlines then st.out ++ [0x0a#8] else st.out

/-- `base64` : src/base64.cpp:33-82 -/
def base64L (data : List Byte) (withNewlines omitEqs : Bool) (charSet : Base64CharSet) : Leak (List Byte) := do
  let st ← b64LoopL (getLookupFor charSet) withNewlines ⟨[], 0#32, 0, 0⟩ data
  b64FinishL (getLookupFor charSet) withNewlines omitEqs st

/-- The loop of `base64d` : src/base64.cpp:88-100 -/
def b64dLoopL (st : B64DState) : List Byte → Leak B64DState
  | [] => do
    emit (.branch false)
    return st
  | v :: str => do
    emit (.branch true)
    let r ← rdL valueOf v.toNat
    emit (.branch (r = -1))
    if r = -1 then b64dLoopL st str
    else
      let value := (st.value <<< 6) ||| (BitVec.ofInt 8 r).setWidth 32
      emit (.branch (st.count + 1 ≠ 4))
      if st.count + 1 ≠ 4 then b64dLoopL { st with value := value, count := st.count + 1 } str
      else
        b64dLoopL ⟨st.out ++ [((value >>> 16) &&& 0xFF#32).setWidth 8, ((value >>> 8) &&& 0xFF#32).setWidth 8,
          ((value >>> 0) &&& 0xFF#32).setWidth 8], value, 0⟩ str

/-- `base64d` : src/base64.cpp:84-114 -/
def base64dL (str : List Byte) : Leak (List Byte) := do
  let st ← b64dLoopL ⟨[], 0#32, 0⟩ str
  emit (.branch (st.count = 2))
  emit (.branch (st.count = 3))
  return b64dFinish st

end Verif.Model
