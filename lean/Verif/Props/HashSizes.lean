import Verif.Props.Hash
import Verif.Proof.Rsa

/-! C102: the sizes that hash objects report. -/

namespace Verif.Props
open Verif.Model Verif.Spec Verif.Proof

/-- C102: every object, in every state, has a digest of `hashsize` bytes, which is the size in the standard. -/
theorem C102_hashsize (c : HashClass) (s : HState c) : (hdata c s).length = hashsize c ∧ hashsize c = digestLength c :=
  ⟨hdata_length c s, hashsize_eq c⟩

/-- C102: the digest of every message of at most `MaxLength()` bytes, added in any pieces, is the one of the standard. -/
theorem C102_maxLength (c : HashClass) (junk : List Byte) (hj : junk.length = bufSize c) (ds : List (List Byte)) (h : ds.flatten.length ≤ maxLength c) :
    hdata c (ds.foldl (hadd c) (hnew c junk)) = digest c ds.flatten := by
  have h61 : ds.flatten.length < 2 ^ 61 := by
    cases c <;> simp only [maxLength] at h <;> omega
  rw [C01_chunking_independent c junk hj ds (by omega)]
  exact digest_correct c junk hj ds.flatten h61

example : (List.replicate 64 0#8).length = bufSize .sha1 ∧ [ascii "ab", ascii "c"].flatten.length ≤ maxLength .sha1 := by decide

end Verif.Props
