import Verif.Base.Basic

/-! Model of src/base64.cpp and include/caligo/base64.h. Text is a list of bytes. -/

namespace Verif.Model

/-- `enum Base64CharSet`: include/caligo/base64.h:11-16 (`UrlSafe` is another name for `MinusUnderscore`). Values outside the enumeration
are not modelled. -/
inductive Base64CharSet where
  | PlusSlash | PlusComma | MinusUnderscore
deriving DecidableEq, Repr

/-- `valueOf[256]` : src/base64.cpp:6-23 -/
def valueOf : List Int := [
  -1, -1, -1, -1, -1, -1, -1, -1, -1, -1, -1, -1, -1, -1, -1, -1,
  -1, -1, -1, -1, -1, -1, -1, -1, -1, -1, -1, -1, -1, -1, -1, -1,
  -1, -1, -1, -1, -1, -1, -1, -1, -1, -1, -1, 62, 63, 62, -1, 63,
  52, 53, 54, 55, 56, 57, 58, 59, 60, 61, -1, -1, -1, -1, -1, -1,
  -1, 0, 1, 2, 3, 4, 5, 6, 7, 8, 9, 10, 11, 12, 13, 14,
  15, 16, 17, 18, 19, 20, 21, 22, 23, 24, 25, -1, -1, -1, -1, 63,
  -1, 26, 27, 28, 29, 30, 31, 32, 33, 34, 35, 36, 37, 38, 39, 40,
  41, 42, 43, 44, 45, 46, 47, 48, 49, 50, 51, -1, -1, -1, -1, -1,
  -1, -1, -1, -1, -1, -1, -1, -1, -1, -1, -1, -1, -1, -1, -1, -1,
  -1, -1, -1, -1, -1, -1, -1, -1, -1, -1, -1, -1, -1, -1, -1, -1,
  -1, -1, -1, -1, -1, -1, -1, -1, -1, -1, -1, -1, -1, -1, -1, -1,
  -1, -1, -1, -1, -1, -1, -1, -1, -1, -1, -1, -1, -1, -1, -1, -1,
  -1, -1, -1, -1, -1, -1, -1, -1, -1, -1, -1, -1, -1, -1, -1, -1,
  -1, -1, -1, -1, -1, -1, -1, -1, -1, -1, -1, -1, -1, -1, -1, -1,
  -1, -1, -1, -1, -1, -1, -1, -1, -1, -1, -1, -1, -1, -1, -1, -1,
  -1, -1, -1, -1, -1, -1, -1, -1, -1, -1, -1, -1, -1, -1, -1, -1]

/-- `getLookupFor` : src/base64.cpp:25-31 -/
def getLookupFor : Base64CharSet → List Byte
  | .PlusSlash => ascii "ABCDEFGHIJKLMNOPQRSTUVWXYZabcdefghijklmnopqrstuvwxyz0123456789+/"
  | .PlusComma => ascii "ABCDEFGHIJKLMNOPQRSTUVWXYZabcdefghijklmnopqrstuvwxyz0123456789+,"
  | .MinusUnderscore => ascii "ABCDEFGHIJKLMNOPQRSTUVWXYZabcdefghijklmnopqrstuvwxyz0123456789-_"

/-- Local variables of `base64` : src/base64.cpp:35-39 -/
structure B64State where
  out : List Byte
  value : U32
  count : Nat
  blocksOnLine : Nat

/-- `encodingOf[x & 0x3F]` : src/base64.cpp:44-47,62-63,70-72 -/
def encAt (encodingOf : List Byte) (x : U32) : Byte := encodingOf.getD (x &&& 0x3F#32).toNat 0#8

/-- Loop body of `base64` : src/base64.cpp:41-56 -/
def b64Step (encodingOf : List Byte) (withNewlines : Bool) (st : B64State) (b : Byte) : B64State :=
  let value := (st.value <<< 8) ||| b.setWidth 32
  let count := st.count + 1
  if count = 3 then
    let out := st.out ++ [encAt encodingOf (value >>> 18), encAt encodingOf (value >>> 12), encAt encodingOf (value >>> 6),
      encAt encodingOf (value >>> 0)]
    let blocksOnLine := st.blocksOnLine + 1
    if blocksOnLine = 19 then
      ⟨if withNewlines then out ++ [0x0a#8] else out, value, 0, 0⟩
    else ⟨out, value, 0, blocksOnLine⟩
  else { st with value := value, count := count }

/-- The `switch` and the final newline of `base64` : src/base64.cpp:58-81 -/
def b64Finish (encodingOf : List Byte) (withNewlines omitEqs : Bool) (st : B64State) : List Byte :=
  let out :=
    if st.count = 1 then
      st.out ++ [encAt encodingOf (st.value >>> 2), encAt encodingOf (st.value <<< 4)] ++
        (if !omitEqs then [0x3d#8, 0x3d#8] else [])
    else if st.count = 2 then
      st.out ++ [encAt encodingOf (st.value >>> 10), encAt encodingOf (st.value >>> 4), encAt encodingOf (st.value <<< 2)] ++
        (if !omitEqs then [0x3d#8] else [])
    else st.out
  if withNewlines then out ++ [0x0a#8] else out

/-- `base64` : src/base64.cpp:33-82. `reserve` has no observable effect. -/
def base64 (data : List Byte) (withNewlines omitEqs : Bool) (charSet : Base64CharSet) : List Byte :=
  let encodingOf := getLookupFor charSet
  b64Finish encodingOf withNewlines omitEqs (data.foldl (b64Step encodingOf withNewlines) ⟨[], 0#32, 0, 0⟩)

/-- Local variables of `base64d` : src/base64.cpp:85-87 -/
structure B64DState where
  out : List Byte
  value : U32
  count : Nat

/-- Loop body of `base64d` : src/base64.cpp:89-99. `(value >> k) & 0xFF` pushed into a `vector<uint8_t>`. -/
def b64dStep (st : B64DState) (v : Byte) : B64DState :=
  let r := valueOf.getD v.toNat (-1)
  if r = -1 then st
  else
    let value := (st.value <<< 6) ||| (BitVec.ofInt 8 r).setWidth 32
    let count := st.count + 1
    if count ≠ 4 then { st with value := value, count := count }
    else ⟨st.out ++ [((value >>> 16) &&& 0xFF#32).setWidth 8, ((value >>> 8) &&& 0xFF#32).setWidth 8,
      ((value >>> 0) &&& 0xFF#32).setWidth 8], value, 0⟩

/-- The `switch` of `base64d` : src/base64.cpp:101-113 -/
def b64dFinish (st : B64DState) : List Byte :=
  if st.count = 2 then st.out ++ [((st.value >>> 4) &&& 0xFF#32).setWidth 8]
  else if st.count = 3 then st.out ++ [((st.value >>> 10) &&& 0xFF#32).setWidth 8, ((st.value >>> 2) &&& 0xFF#32).setWidth 8]
  else st.out

/-- `base64d` : src/base64.cpp:84-114 -/
def base64d (str : List Byte) : List Byte := b64dFinish (str.foldl b64dStep ⟨[], 0#32, 0⟩)

end Verif.Model
