import Verif.Props.LengthExtension
import Verif.Props.Rsa
import Verif.Props.Collision

/-! C133: the known collisions of MD5 (Wang and Yu, 2004) and SHA-1 (Stevens, Bursztein, Karpman, Albertini and Markov, 2017) in the hash classes of the library. -/

namespace Verif.Props
open Verif.Model Verif.Proof

def md5A : List Byte := [
  0xd1#8, 0x31#8, 0xdd#8, 0x02#8, 0xc5#8, 0xe6#8, 0xee#8, 0xc4#8, 0x69#8, 0x3d#8, 0x9a#8, 0x06#8, 0x98#8, 0xaf#8, 0xf9#8, 0x5c#8, 0x2f#8, 0xca#8, 0xb5#8, 0x87#8, 0x12#8, 0x46#8, 0x7e#8, 0xab#8,
  0x40#8, 0x04#8, 0x58#8, 0x3e#8, 0xb8#8, 0xfb#8, 0x7f#8, 0x89#8, 0x55#8, 0xad#8, 0x34#8, 0x06#8, 0x09#8, 0xf4#8, 0xb3#8, 0x02#8, 0x83#8, 0xe4#8, 0x88#8, 0x83#8, 0x25#8, 0x71#8, 0x41#8, 0x5a#8,
  0x08#8, 0x51#8, 0x25#8, 0xe8#8, 0xf7#8, 0xcd#8, 0xc9#8, 0x9f#8, 0xd9#8, 0x1d#8, 0xbd#8, 0xf2#8, 0x80#8, 0x37#8, 0x3c#8, 0x5b#8, 0xd8#8, 0x82#8, 0x3e#8, 0x31#8, 0x56#8, 0x34#8, 0x8f#8, 0x5b#8,
  0xae#8, 0x6d#8, 0xac#8, 0xd4#8, 0x36#8, 0xc9#8, 0x19#8, 0xc6#8, 0xdd#8, 0x53#8, 0xe2#8, 0xb4#8, 0x87#8, 0xda#8, 0x03#8, 0xfd#8, 0x02#8, 0x39#8, 0x63#8, 0x06#8, 0xd2#8, 0x48#8, 0xcd#8, 0xa0#8,
  0xe9#8, 0x9f#8, 0x33#8, 0x42#8, 0x0f#8, 0x57#8, 0x7e#8, 0xe8#8, 0xce#8, 0x54#8, 0xb6#8, 0x70#8, 0x80#8, 0xa8#8, 0x0d#8, 0x1e#8, 0xc6#8, 0x98#8, 0x21#8, 0xbc#8, 0xb6#8, 0xa8#8, 0x83#8, 0x93#8,
  0x96#8, 0xf9#8, 0x65#8, 0x2b#8, 0x6f#8, 0xf7#8, 0x2a#8, 0x70#8]

def md5B : List Byte := [
  0xd1#8, 0x31#8, 0xdd#8, 0x02#8, 0xc5#8, 0xe6#8, 0xee#8, 0xc4#8, 0x69#8, 0x3d#8, 0x9a#8, 0x06#8, 0x98#8, 0xaf#8, 0xf9#8, 0x5c#8, 0x2f#8, 0xca#8, 0xb5#8, 0x07#8, 0x12#8, 0x46#8, 0x7e#8, 0xab#8,
  0x40#8, 0x04#8, 0x58#8, 0x3e#8, 0xb8#8, 0xfb#8, 0x7f#8, 0x89#8, 0x55#8, 0xad#8, 0x34#8, 0x06#8, 0x09#8, 0xf4#8, 0xb3#8, 0x02#8, 0x83#8, 0xe4#8, 0x88#8, 0x83#8, 0x25#8, 0xf1#8, 0x41#8, 0x5a#8,
  0x08#8, 0x51#8, 0x25#8, 0xe8#8, 0xf7#8, 0xcd#8, 0xc9#8, 0x9f#8, 0xd9#8, 0x1d#8, 0xbd#8, 0x72#8, 0x80#8, 0x37#8, 0x3c#8, 0x5b#8, 0xd8#8, 0x82#8, 0x3e#8, 0x31#8, 0x56#8, 0x34#8, 0x8f#8, 0x5b#8,
  0xae#8, 0x6d#8, 0xac#8, 0xd4#8, 0x36#8, 0xc9#8, 0x19#8, 0xc6#8, 0xdd#8, 0x53#8, 0xe2#8, 0x34#8, 0x87#8, 0xda#8, 0x03#8, 0xfd#8, 0x02#8, 0x39#8, 0x63#8, 0x06#8, 0xd2#8, 0x48#8, 0xcd#8, 0xa0#8,
  0xe9#8, 0x9f#8, 0x33#8, 0x42#8, 0x0f#8, 0x57#8, 0x7e#8, 0xe8#8, 0xce#8, 0x54#8, 0xb6#8, 0x70#8, 0x80#8, 0x28#8, 0x0d#8, 0x1e#8, 0xc6#8, 0x98#8, 0x21#8, 0xbc#8, 0xb6#8, 0xa8#8, 0x83#8, 0x93#8,
  0x96#8, 0xf9#8, 0x65#8, 0xab#8, 0x6f#8, 0xf7#8, 0x2a#8, 0x70#8]

/-- the common first 192 bytes of the two files -/
def sha1Head : List Byte := [
  0x25#8, 0x50#8, 0x44#8, 0x46#8, 0x2d#8, 0x31#8, 0x2e#8, 0x33#8, 0x0a#8, 0x25#8, 0xe2#8, 0xe3#8, 0xcf#8, 0xd3#8, 0x0a#8, 0x0a#8, 0x0a#8, 0x31#8, 0x20#8, 0x30#8, 0x20#8, 0x6f#8, 0x62#8, 0x6a#8,
  0x0a#8, 0x3c#8, 0x3c#8, 0x2f#8, 0x57#8, 0x69#8, 0x64#8, 0x74#8, 0x68#8, 0x20#8, 0x32#8, 0x20#8, 0x30#8, 0x20#8, 0x52#8, 0x2f#8, 0x48#8, 0x65#8, 0x69#8, 0x67#8, 0x68#8, 0x74#8, 0x20#8, 0x33#8,
  0x20#8, 0x30#8, 0x20#8, 0x52#8, 0x2f#8, 0x54#8, 0x79#8, 0x70#8, 0x65#8, 0x20#8, 0x34#8, 0x20#8, 0x30#8, 0x20#8, 0x52#8, 0x2f#8, 0x53#8, 0x75#8, 0x62#8, 0x74#8, 0x79#8, 0x70#8, 0x65#8, 0x20#8,
  0x35#8, 0x20#8, 0x30#8, 0x20#8, 0x52#8, 0x2f#8, 0x46#8, 0x69#8, 0x6c#8, 0x74#8, 0x65#8, 0x72#8, 0x20#8, 0x36#8, 0x20#8, 0x30#8, 0x20#8, 0x52#8, 0x2f#8, 0x43#8, 0x6f#8, 0x6c#8, 0x6f#8, 0x72#8,
  0x53#8, 0x70#8, 0x61#8, 0x63#8, 0x65#8, 0x20#8, 0x37#8, 0x20#8, 0x30#8, 0x20#8, 0x52#8, 0x2f#8, 0x4c#8, 0x65#8, 0x6e#8, 0x67#8, 0x74#8, 0x68#8, 0x20#8, 0x38#8, 0x20#8, 0x30#8, 0x20#8, 0x52#8,
  0x2f#8, 0x42#8, 0x69#8, 0x74#8, 0x73#8, 0x50#8, 0x65#8, 0x72#8, 0x43#8, 0x6f#8, 0x6d#8, 0x70#8, 0x6f#8, 0x6e#8, 0x65#8, 0x6e#8, 0x74#8, 0x20#8, 0x38#8, 0x3e#8, 0x3e#8, 0x0a#8, 0x73#8, 0x74#8,
  0x72#8, 0x65#8, 0x61#8, 0x6d#8, 0x0a#8, 0xff#8, 0xd8#8, 0xff#8, 0xfe#8, 0x00#8, 0x24#8, 0x53#8, 0x48#8, 0x41#8, 0x2d#8, 0x31#8, 0x20#8, 0x69#8, 0x73#8, 0x20#8, 0x64#8, 0x65#8, 0x61#8, 0x64#8,
  0x21#8, 0x21#8, 0x21#8, 0x21#8, 0x21#8, 0x85#8, 0x2f#8, 0xec#8, 0x09#8, 0x23#8, 0x39#8, 0x75#8, 0x9c#8, 0x39#8, 0xb1#8, 0xa1#8, 0xc6#8, 0x3c#8, 0x4c#8, 0x97#8, 0xe1#8, 0xff#8, 0xfe#8, 0x01#8]

def sha1A : List Byte := sha1Head ++ [
  0x7f#8, 0x46#8, 0xdc#8, 0x93#8, 0xa6#8, 0xb6#8, 0x7e#8, 0x01#8, 0x3b#8, 0x02#8, 0x9a#8, 0xaa#8, 0x1d#8, 0xb2#8, 0x56#8, 0x0b#8, 0x45#8, 0xca#8, 0x67#8, 0xd6#8, 0x88#8, 0xc7#8, 0xf8#8, 0x4b#8,
  0x8c#8, 0x4c#8, 0x79#8, 0x1f#8, 0xe0#8, 0x2b#8, 0x3d#8, 0xf6#8, 0x14#8, 0xf8#8, 0x6d#8, 0xb1#8, 0x69#8, 0x09#8, 0x01#8, 0xc5#8, 0x6b#8, 0x45#8, 0xc1#8, 0x53#8, 0x0a#8, 0xfe#8, 0xdf#8, 0xb7#8,
  0x60#8, 0x38#8, 0xe9#8, 0x72#8, 0x72#8, 0x2f#8, 0xe7#8, 0xad#8, 0x72#8, 0x8f#8, 0x0e#8, 0x49#8, 0x04#8, 0xe0#8, 0x46#8, 0xc2#8, 0x30#8, 0x57#8, 0x0f#8, 0xe9#8, 0xd4#8, 0x13#8, 0x98#8, 0xab#8,
  0xe1#8, 0x2e#8, 0xf5#8, 0xbc#8, 0x94#8, 0x2b#8, 0xe3#8, 0x35#8, 0x42#8, 0xa4#8, 0x80#8, 0x2d#8, 0x98#8, 0xb5#8, 0xd7#8, 0x0f#8, 0x2a#8, 0x33#8, 0x2e#8, 0xc3#8, 0x7f#8, 0xac#8, 0x35#8, 0x14#8,
  0xe7#8, 0x4d#8, 0xdc#8, 0x0f#8, 0x2c#8, 0xc1#8, 0xa8#8, 0x74#8, 0xcd#8, 0x0c#8, 0x78#8, 0x30#8, 0x5a#8, 0x21#8, 0x56#8, 0x64#8, 0x61#8, 0x30#8, 0x97#8, 0x89#8, 0x60#8, 0x6b#8, 0xd0#8, 0xbf#8,
  0x3f#8, 0x98#8, 0xcd#8, 0xa8#8, 0x04#8, 0x46#8, 0x29#8, 0xa1#8]

def sha1B : List Byte := sha1Head ++ [
  0x73#8, 0x46#8, 0xdc#8, 0x91#8, 0x66#8, 0xb6#8, 0x7e#8, 0x11#8, 0x8f#8, 0x02#8, 0x9a#8, 0xb6#8, 0x21#8, 0xb2#8, 0x56#8, 0x0f#8, 0xf9#8, 0xca#8, 0x67#8, 0xcc#8, 0xa8#8, 0xc7#8, 0xf8#8, 0x5b#8,
  0xa8#8, 0x4c#8, 0x79#8, 0x03#8, 0x0c#8, 0x2b#8, 0x3d#8, 0xe2#8, 0x18#8, 0xf8#8, 0x6d#8, 0xb3#8, 0xa9#8, 0x09#8, 0x01#8, 0xd5#8, 0xdf#8, 0x45#8, 0xc1#8, 0x4f#8, 0x26#8, 0xfe#8, 0xdf#8, 0xb3#8,
  0xdc#8, 0x38#8, 0xe9#8, 0x6a#8, 0xc2#8, 0x2f#8, 0xe7#8, 0xbd#8, 0x72#8, 0x8f#8, 0x0e#8, 0x45#8, 0xbc#8, 0xe0#8, 0x46#8, 0xd2#8, 0x3c#8, 0x57#8, 0x0f#8, 0xeb#8, 0x14#8, 0x13#8, 0x98#8, 0xbb#8,
  0x55#8, 0x2e#8, 0xf5#8, 0xa0#8, 0xa8#8, 0x2b#8, 0xe3#8, 0x31#8, 0xfe#8, 0xa4#8, 0x80#8, 0x37#8, 0xb8#8, 0xb5#8, 0xd7#8, 0x1f#8, 0x0e#8, 0x33#8, 0x2e#8, 0xdf#8, 0x93#8, 0xac#8, 0x35#8, 0x00#8,
  0xeb#8, 0x4d#8, 0xdc#8, 0x0d#8, 0xec#8, 0xc1#8, 0xa8#8, 0x64#8, 0x79#8, 0x0c#8, 0x78#8, 0x2c#8, 0x76#8, 0x21#8, 0x56#8, 0x60#8, 0xdd#8, 0x30#8, 0x97#8, 0x91#8, 0xd0#8, 0x6b#8, 0xd0#8, 0xaf#8,
  0x3f#8, 0x98#8, 0xcd#8, 0xa4#8, 0xbc#8, 0x46#8, 0x29#8, 0xb1#8]

/-- Two different messages of whole blocks that lead to the same chaining value give the same digest with every suffix. -/
theorem same_with_suffix {A : BlockAlg} (hB : A.B ∣ 2 ^ 64) (m m' suffix junk : List Byte) (hj : junk.length = A.B) (hd : A.B ∣ m.length) (hl : m.length = m'.length)
    (h : Spec.iterate A.compress A.init (Spec.blocks A.B m) = Spec.iterate A.compress A.init (Spec.blocks A.B m')) :
    ((BlockState.new A junk).add (m ++ suffix)).data = ((BlockState.new A junk).add (m' ++ suffix)).data := by
  have r := resumed_digest hB m [] suffix junk hj (by rwa [List.append_nil])
  have r' := resumed_digest hB m' [] suffix junk hj (by rwa [List.append_nil, ← hl])
  rw [List.append_nil] at r r'
  rw [r, r', h, hl]

/-- The chaining values agree after two blocks. -/
theorem md5_chain : @Eq Md5H (Spec.iterate md5Compress md5.init (Spec.blocks 64 md5A)) (Spec.iterate md5Compress md5.init (Spec.blocks 64 md5B)) := by
  decide +kernel

/-- The chaining values agree after five blocks. -/
theorem sha1_chain : @Eq Sha1H (Spec.iterate sha1Compress sha1.init (Spec.blocks 64 sha1A)) (Spec.iterate sha1Compress sha1.init (Spec.blocks 64 sha1B)) := by
  decide +kernel

/-- C133, MD5: the two messages collide with every suffix. -/
theorem C133_md5 (suffix : List Byte) : md5A ≠ md5B ∧ md5A ++ suffix ≠ md5B ++ suffix ∧ hashOf .md5 (md5A ++ suffix) = hashOf .md5 (md5B ++ suffix) := by
  have hne : md5A ≠ md5B := by decide +kernel
  refine ⟨hne, fun h => hne (List.append_cancel_right h), ?_⟩
  exact same_with_suffix (A := md5) (by decide) md5A md5B suffix _ List.length_replicate (by decide +kernel) (by decide +kernel) md5_chain

/-- C133, SHA-1: the two beginnings of PDF files collide with every suffix. -/
theorem C133_sha1 (suffix : List Byte) : sha1A ≠ sha1B ∧ sha1A ++ suffix ≠ sha1B ++ suffix ∧ hashOf .sha1 (sha1A ++ suffix) = hashOf .sha1 (sha1B ++ suffix) := by
  have hne : sha1A ≠ sha1B := by decide +kernel
  refine ⟨hne, fun h => hne (List.append_cancel_right h), ?_⟩
  exact same_with_suffix (A := sha1) (by decide) sha1A sha1B suffix _ List.length_replicate (by decide +kernel) (by decide +kernel) sha1_chain

/-- C133, signatures: a PSS signature over one of the two messages is at the same time one over the other, for every key, every length of the salt, every suffix. -/
theorem C133_pss (N : Nat) (k : RsaPub) (sLen : Nat) (suffix sig : List Byte) :
    validatePss N k .md5 sLen (md5A ++ suffix) sig = validatePss N k .md5 sLen (md5B ++ suffix) sig ∧
    validatePss N k .sha1 sLen (sha1A ++ suffix) sig = validatePss N k .sha1 sLen (sha1B ++ suffix) sig := by
  simp only [validatePss, (C133_md5 suffix).2.2, (C133_sha1 suffix).2.2, and_self]

/-- C133, in terms of the specification: the collisions are collisions of the functions of RFC 1321 and RFC 3174. -/
theorem C133_spec (suffix : List Byte) (h : suffix.length < 2 ^ 60) :
    Collides .md5 (md5A ++ suffix) (md5B ++ suffix) ∧ Collides .sha1 (sha1A ++ suffix) (sha1B ++ suffix) := by
  have l1 : md5A.length = 128 := by decide +kernel
  have l2 : md5B.length = 128 := by decide +kernel
  have l3 : sha1A.length = 320 := by decide +kernel
  have l4 : sha1B.length = 320 := by decide +kernel
  have a := C133_md5 suffix
  have b := C133_sha1 suffix
  refine ⟨⟨a.2.1, ?_⟩, ⟨b.2.1, ?_⟩⟩
  · have := a.2.2
    rwa [hashOf_eq _ _ (by simp only [List.length_append]; omega), hashOf_eq _ _ (by simp only [List.length_append]; omega)] at this
  · have := b.2.2
    rwa [hashOf_eq _ _ (by simp only [List.length_append]; omega), hashOf_eq _ _ (by simp only [List.length_append]; omega)] at this

/-- A suffix that meets the hypothesis. -/
example : ([1#8, 2#8, 3#8] : List Byte).length < 2 ^ 60 := by decide

end Verif.Props
