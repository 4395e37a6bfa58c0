import Verif.Props.EndToEnd
import Verif.Props.InnerAlgorithm
import Verif.Props.NoKey
import Verif.Props.Modes
import Verif.Props.Gcm
import Verif.Props.Date
import Verif.Props.DateOrder
import Verif.Props.Cert
import Verif.Props.Rsa
import Verif.Props.Collision
import Verif.Props.SideChannelPrime
import Verif.Props.SideChannelHash
import Verif.Props.X25519Orders
import Verif.Props.PrivateKey
import Verif.Props.Pem

/-! Concrete non-trivial cases that meet the hypotheses of theorems whose own file has no example for them. -/

namespace Verif.Props

open Verif.Model Verif.Spec Verif.Spec.Gcm Verif.Proof

/-! ### Gcm (C55, C56, C57, C59): AES-128, AES-256, histories of calls, supported and unsupported IVs -/

/-- C55_records, C57_standard: a cipher, an IV of 12 bytes, a history of three calls. -/
example : ∃ E, IsCipher (aesCipher128 (List.replicate 176 7#8)) (List.replicate 16 3#8) E ∧ (List.replicate 12 9#8 : List Byte).length = 12 ∧
    [GcmOp.enc [1#8] [], GcmOp.dec [2#8] [3#8] [], GcmOp.enc [] []].length = 3 :=
  let ⟨E, h, _⟩ := aes128_isCipher (List.replicate 176 7#8) (List.replicate 16 3#8) rfl
  ⟨E, h, rfl, rfl⟩

/-- C55_first, C56_session, C57_exact, C59_partial: two ciphers with different memory and one key, IVs of 8 and 13 bytes, histories of equal length and one longer. -/
example : ∃ E, IsCipher (aesCipher128 (List.replicate 176 7#8)) (List.replicate 16 3#8) E ∧ IsCipher (aesCipher128 (List.replicate 176 1#8)) (List.replicate 16 3#8) E := by
  obtain ⟨E, h, e⟩ := aes128_isCipher (List.replicate 176 7#8) (List.replicate 16 3#8) rfl
  obtain ⟨E', h', e'⟩ := aes128_isCipher (List.replicate 176 1#8) (List.replicate 16 3#8) rfl
  have : E = E' := by
    funext b
    have := congrFun (e.trans e'.symm) (storeu b)
    rw [ciph, ciph, load_storeu] at this
    rw [← load_storeu (E b), this, load_storeu]
  exact ⟨E, h, this ▸ h'⟩

example : ((List.replicate 8 1#8 : List Byte).length = 8 ∨ 12 ≤ (List.replicate 8 1#8 : List Byte).length) ∧
    ((List.replicate 13 1#8 : List Byte).length = 8 ∨ 12 ≤ (List.replicate 13 1#8 : List Byte).length) ∧
    ¬ ((List.replicate 9 1#8 : List Byte).length = 8 ∨ 12 ≤ (List.replicate 9 1#8 : List Byte).length) ∧
    [GcmOp.enc [1#8] []].length = [GcmOp.dec [2#8] [3#8] []].length ∧ [GcmOp.enc [1#8] []].length + 1 = [GcmOp.dec [2#8] [3#8] [], GcmOp.enc [] []].length := by decide

/-- C57_tag: a tag that is accepted, and another tag. -/
example : ∃ (S : Type) (C : Cipher S) (key iv c a t t' : List Byte) (E : M128 → M128) (g g' : Gcm S) (p : List Byte), IsCipher C key E ∧ iv.length = 12 ∧ c ≠ [] ∧
    gcmAfter C 0#128 key iv [] = .ok g ∧ gcmDecrypt C g c a t = .ok ((p, true), g') ∧ t' ≠ t := by
  obtain ⟨E, h, _⟩ := aes256_isCipher (List.replicate 32 3#8) rfl
  obtain ⟨g, g', cs, g1, g1', e1, e2, e3, hl, e4⟩ := C56_session aesCipher256 aesCipher256 _ E h h 0#128 0#128 (List.replicate 12 9#8) (.inr (by decide)) [] [] rfl [([1#8, 2#8], [5#8])]
  match cs, hl with
  | [(c, t)], _ =>
    obtain ⟨x, p, v, x', ct, tg, x'', f1, f2, f3, f4, f5⟩ := C57_exact aesCipher256 _ E h 0#128 (List.replicate 12 9#8) (.inr (by decide)) [] c [5#8] t
    rw [e2] at f1
    obtain rfl := Except.ok.inj f1
    have hd : (do let x ← gcmDecrypt aesCipher256 g' c [5#8] t; let y ← gcmDecryptAll aesCipher256 x.2 []; return (x.1 :: y.1, y.2)) = Except.ok ([([1#8, 2#8], true)], g1') := e4
    rw [f2] at hd
    have hp : p = [1#8, 2#8] ∧ v = true := by
      have := (Prod.mk.inj (Except.ok.inj hd)).1
      exact Prod.mk.inj (List.cons.inj this).1
    obtain ⟨rfl, rfl⟩ := hp
    refine ⟨_, aesCipher256, _, _, c, [5#8], t, t ++ [0#8], E, g', x', _, h, rfl, ?_, e2, f2, by simp⟩
    rintro rfl
    have h4 : (gcmDecrypt aesCipher256 g' [] [5#8] t).map (fun r => r.1.1.length) = .ok 2 := by rw [f2]; rfl
    obtain ⟨y1, y2, y3, y4, y5, y6, y7, y8, y9, k1, k2, k3, _⟩ := C59_partial aesCipher256 aesCipher256 _ E h h 0#128 0#128 (List.replicate 12 9#8) (.inr (by decide)) [] [.enc [] []] rfl [] [5#8] t [] []
    rw [e2] at k1
    obtain rfl := Except.ok.inj k1
    rw [k2] at h4
    have := Except.ok.inj h4
    change y2.length = 2 at this
    rw [k3] at this
    exact absurd this (by decide)

/-! ### Modes (C60, C61) -/

/-- C60_constructor, C60_restores and with them C60_partial: AES-128 and its key size. -/
example : ∃ g, ∃ E : M128 → M128, ctrNew (aesCipher128 (List.replicate 176 7#8)) (List.replicate 16 3#8) (List.replicate 16 9#8) = .ok g ∧ g.iv.length = 16 ∧
    ∀ b, (aesCipher128 (List.replicate 176 7#8)).encrypt g.sched b = .ok (E b) := by
  obtain ⟨E, h, _⟩ := aes128_isCipher (List.replicate 176 7#8) (List.replicate 16 3#8) rfl
  obtain ⟨g, e, hi, _, hb⟩ := (C60_constructor _ _ (List.replicate 16 9#8) E h).2 rfl rfl
  exact ⟨g, E, e, by rw [hi]; rfl, hb⟩

/-- C61: a cipher with blocks of one byte and a text of three. -/
example : GoodCipher addCipher ∧ [1#8, 2#8, 3#8].length % addCipher.size = 0 ∧ [5#8].length = addCipher.size := ⟨addCipher_good, rfl, rfl⟩

/-! ### Date, DateOrder (C71, C104) -/

/-- C71_late_partial and C71_early_partial: a date after 2100 and one before 1970. -/
example : DateTime.Valid ⟨2207, 12, 31, 23, 59, 59⟩ ∧ DateTime.Valid ⟨1954, 2, 28, 0, 0, 0⟩ :=
  ⟨⟨by decide, by decide, by decide, by decide, by decide, by decide, by decide, by decide⟩, ⟨by decide, by decide, by decide, by decide, by decide, by decide, by decide, by decide⟩⟩

/-- C104_early_partial. -/
example : EncodesDate 23#8 (utcTime ⟨1954, 2, 28, 0, 0, 0⟩) ⟨1954, 2, 28, 0, 0, 0⟩ ∧ EncodesDate 24#8 (generalizedTime ⟨2207, 12, 31, 23, 59, 59⟩) ⟨2207, 12, 31, 23, 59, 59⟩ :=
  ⟨.inr ⟨rfl, rfl, by decide, by decide⟩, .inl ⟨rfl, rfl⟩⟩

/-! ### Cert (C80) -/

/-- C80_serial_partial and C80_exponent_partial: a serial number of 17 octets, an exponent below 17. -/
example : Ordinary (demoTbs (2 ^ 128 + 1) 65537 none) ∧ Ordinary (demoTbs 1 3 none) ∧ (demoTbs 1 3 none).exponent < 17 ∧ (certDer (demoTbs 1 3 none) [] []).length < 2 ^ 64 :=
  ⟨demoTbs_ordinary _ _ _ (by decide) (by decide +kernel), demoTbs_ordinary _ _ _ (by decide) (by decide +kernel), by decide, by decide +kernel⟩

/-! ### Truststore (C75, C76, C77, C78) -/

/-- C75, C78_list: a chain of three certificates is trusted. -/
example : ∃ added certs certs' now, (storeOf added).trust certs now = .ok (true, certs') ∧ certs.length = 2 :=
  let ⟨leaf, mid, root, certs', _, _, _, _, _, _, _, _, _, _, _, _, _, ht⟩ := chain_demo
  ⟨[root], [leaf, mid], certs', _, ht, rfl⟩

/-- C76_partial: a fault with a certificate in the list. -/
example : ∃ added certs now, (storeOf added).trust certs now = .error .ub ∧ certs.length = 1 := by
  obtain ⟨c', pc', _, _, _, d1, d2⟩ := forged_parse
  obtain ⟨i', c'', _, pc'', _, h''⟩ := C105_attack
  rw [pc''] at pc'
  obtain rfl := Except.ok.inj pc'
  refine ⟨[i'], [c''], c''.validity_start, h'' _ ⟨BitVec.le_refl _, ?_⟩, rfl⟩
  have : unixTime ⟨2024, 2, 29, 12, 0, 0⟩ < unixTime ⟨2050, 12, 31, 23, 59, 59⟩ := by decide +kernel
  rw [BitVec.le_def]
  omega

/-! ### Rsa (C34, C35, C38, C82) -/

/-- C34_partial, C34_unique, C35_partial: a modulus of 648 bits, SHA-256. -/
example : value demoN % 2 = 1 ∧ 1 < value demoN ∧ hashOid .sha2_256 = some [2, 16, 840, 1, 101, 3, 4, 2, 1] ∧ 2 ^ (8 * 81 - 1) ≤ value demoN ∧ value demoN < 2 ^ (8 * 81) ∧
    (digestInfo [2, 16, 840, 1, 101, 3, 4, 2, 1] (List.replicate 32 0#8)).length + 11 ≤ 81 ∧ demoN.length = 21 ∧ ValidPair (value demoN) 1 1 :=
  ⟨by decide +kernel, by decide +kernel, by decide, by decide +kernel, by decide +kernel, by decide +kernel, by decide +kernel,
    by rw [show value demoN = (2 ^ 127 - 1) * (2 ^ 521 - 1) by decide +kernel]; exact demo_pair⟩

/-- C34_unique with its acceptance hypotheses, from C35_partial: the signature made with the private key is accepted. -/
example : ∃ sig, (do let k ← rsaPubNew (32 * 21) demoN demoOne; validatePkcs1 (32 * 21) k .md5 [] sig) = .ok true := by
  have hn : value demoN = (2 ^ 127 - 1) * (2 ^ 521 - 1) := by decide +kernel
  have h1 : value demoOne = 1 := by decide +kernel
  have hl : (digestInfo [1, 2, 840, 113549, 2, 5] (digest .md5 (tlv 0x30#8 []))).length + 11 ≤ 81 := by decide +kernel
  obtain ⟨EM, sig, _, _, _, _, h⟩ := C35_partial 21 demoN demoOne demoOne .md5 [1, 2, 840, 113549, 2, 5] [] 81 (by decide) (by decide +kernel) (by decide +kernel) (by decide +kernel)
    (by rw [hn, h1]; exact demo_pair) rfl (by decide) (by decide) (by rw [hn]; decide +kernel) (by rw [hn]; decide +kernel) (by decide) hl
  exact ⟨_, h⟩

/-- C38_partial, C38_sha256: a modulus of 1128 bits. -/
example : demoN2.length = 128 ∧ ValidPair (value demoN2) 1 1 ∧ 2 ^ (8 * 141 - 1) ≤ value demoN2 ∧ value demoN2 < 2 ^ (8 * 141) ∧ 130 ≤ 141 := by
  have hn : value demoN2 = (2 ^ 521 - 1) * (2 ^ 607 - 1) := demoN2_facts.2
  exact ⟨by decide +kernel, by rw [hn]; exact demo_pair2, by rw [hn]; decide +kernel, by rw [hn]; decide +kernel, by decide⟩

/-- C82_partial: signatures of 20 and of 40 bytes with SHA-1 and a modulus of as many. -/
example : (20 : Nat) ≤ digestLength .sha1 ∧ digestLength .sha1 + 2 ≤ 40 ∧ 40 ≤ 2 * digestLength .sha1 ∧ value (List.replicate 10 0xffffffff#32) % 2 = 1 ∧
    2 ^ (8 * 40 - 1) ≤ value (List.replicate 10 0xffffffff#32) ∧ value (List.replicate 10 0xffffffff#32) < 2 ^ (8 * 40) := by decide +kernel

/-! ### X25519 (C91, C92) -/

/-- C92_exact, C92_partial: the base point is not of low order; the keys that C92_partial identifies exist. -/
example : value [9#32, 0#32, 0#32, 0#32, 0#32, 0#32, 0#32, 0#32] = 9 ∧ value [9#32, 0#32, 0#32, 0#32, 0#32, 0#32, 0#32, 0#32] % p25519 ∉ lowOrderU := by decide +kernel

/-! ### PrivateKey (C95) -/

/-- C95_long_partial: a modulus of more than 4096 bits. -/
example : (RsaKeyFile.der ⟨2 ^ 4096 + 3233, 17, 2753, 61, 53, 53, 49, 38⟩).length < 2 ^ 64 ∧ (2 ^ 4096 + 3233) % 2 = 1 ∧ 1 < (2 ^ 4096 + 3233) % 2 ^ 4096 := by decide +kernel

/-! ### the events (C126 - C131) -/

/-- C126: memory of the right sizes. -/
example : ∃ J : Junk, J.w32.length = 80 ∧ J.w64.length = 80 ∧ J.w5.length = 5 := ⟨⟨List.replicate 80 1#32, List.replicate 80 2#64, List.replicate 5 3#64⟩, rfl, rfl, rfl⟩

/-- C127: two streams of two messages. -/
example : ([[1#8, 2#8], [3#8]] : List (List Byte)).map List.length = ([[4#8, 5#8], [6#8]] : List (List Byte)).map List.length := rfl

/-- C130_partial, C131_partial: a run that returns a prime. -/
example : ∃ s p, randomPrime (32 * 1) false 1 s = .ok (some p) ∧ s.testValues.length = 1 := ⟨_, _, random_2147484043, rfl⟩

/-- C53_aes128: a key of 16 bytes has a schedule. -/
example : ∃ s, aesSchedule128 (List.replicate 176 7#8) (List.replicate 16 3#8) = .ok s := by
  obtain ⟨E, ⟨s, hs, _⟩, _⟩ := aes128_isCipher (List.replicate 176 7#8) (List.replicate 16 3#8) rfl
  exact ⟨s, hs⟩

/-- A case that meets the hypotheses of `C73_defined`. -/
example := C73_defined demoName demoName_plain.1

open Classical in
/-- A case that meets the hypotheses of `C84_scalar_multiple`. -/
example := C84_scalar_multiple (K := AlgebraicClosure (ZMod p25519)) (List.replicate 8 3#32) (List.replicate 8 9#32) rfl rfl
example : ∃ v : AlgebraicClosure (ZMod p25519), (curve25519 _).Nonsingular (algebraMap (ZMod p25519) _ (value (List.replicate 8 9#32))) v := C84_point_exists _

end Verif.Props
