import Verif.Props.Hkdf
import Verif.Proof.NatSha512

/-! C65: where HMAC of the library is not the standard one. -/

namespace Verif.Props

open Verif.Model Verif.Proof Verif.Proof.Hk

/-- The key of HMAC, filled up to `n` bytes and masked. -/
def padKey (n : Nat) (x : Byte) (k : List Byte) : List Byte := (k ++ List.replicate (n - k.length) 0#8).map (· ^^^ x)

theorem rfc_value {key text u v : List Byte} (hk : key.length ≤ 96) (h1 : hashOf .sha2_384 (padKey 128 0x36#8 key ++ text) = u)
    (h2 : hashOf .sha2_384 (padKey 128 0x5C#8 key ++ u) = v) : Spec.rfc2104 (hashOf .sha2_384) 128 key text = v := by
  unfold Spec.rfc2104
  rw [if_neg (by omega)]
  show hashOf .sha2_384 (padKey 128 0x5C#8 key ++ hashOf .sha2_384 (padKey 128 0x36#8 key ++ text)) = v
  rw [h1, h2]

theorem lib_value {key text u v : List Byte} (hk : key.length ≤ 96) (h1 : hashOf .sha2_384 (padKey 96 0x36#8 key ++ text) = u)
    (h2 : hashOf .sha2_384 (padKey 96 0x5C#8 key ++ u) = v) : hmac .sha2_384 text key = v := by
  have e : ∀ x : Byte, (resizeTo key (hashsize .sha2_384 * 2)).map (· ^^^ x) = padKey 96 x key := fun x => by
    show List.map _ (key.take 96 ++ List.replicate (96 - key.length) 0#8) = _
    rw [List.take_of_length_le (by omega)]; rfl
  unfold hmac
  rw [e, e]
  show hashOf .sha2_384 (padKey 96 0x5C#8 key ++ hashOf .sha2_384 (padKey 96 0x36#8 key ++ text)) = v
  rw [h1, h2]

/-- SHA-384, the second hash of TLS 1.3: the empty text under the empty key is already wrong. -/
theorem C65_false_sha384 : hmac .sha2_384 [] [] ≠ Spec.hmac .sha2_384 [] [] := by
  rw [spec_hmac_eval _ _ _ (by simp) (by simp), show Spec.blockLength .sha2_384 = 128 from rfl,
    lib_value (u := Spec.beBytes 48 0xf413531413e55a7613fa92a47487aadb37525bf771607866543eda0510f2b8a9e60b5a90ca6d3af27794ffb9d552eb9a) (v := Spec.beBytes 48 0xf8ecc5aa651300f577e65e7e1131a06bb78db695c8d7ea3884321cdf452ac375e69bd1a31833e22a3d2fbc361afa5a7d)
      (by decide) (Fast.run384_sound (n := 1) (by decide +kernel)) (Fast.run384_sound (n := 2) (by decide +kernel)),
    rfc_value (u := Spec.beBytes 48 0x98410beb5620e019d5b965fde27f94991efc7dc30bd5781820e3971b8d4b0ef95dab2ee49789688a750495e09eac9041) (v := Spec.beBytes 48 0x6c1f2ee938fad2e24bd91298474382ca218c75db3d83e114b3d4367776d14d3551289e75e8209cd4b792302840234adc)
      (by decide) (Fast.run384_sound (n := 2) (by decide +kernel)) (Fast.run384_sound (n := 2) (by decide +kernel))]
  decide +kernel

/-- SHA-1 likewise. -/
theorem C65_false_sha1 : hmac .sha1 [] [] ≠ Spec.hmac .sha1 [] [] := by
  rw [spec_hmac_eval _ _ _ (by simp) (by simp)]; decide +kernel

/-- SHA-256 with a key of 65 bytes. -/
theorem C65_false_sha256_long : hmac .sha2_256 [] (List.replicate 65 0#8) ≠ Spec.hmac .sha2_256 (List.replicate 65 0#8) [] := by
  rw [spec_hmac_eval _ _ _ (by simp) (by simp)]; decide +kernel

theorem C65_false : ¬ C65_claim := fun h => C65_false_sha384 (h .sha2_384 [] [] (by decide) (by simp) (by simp))

end Verif.Props
