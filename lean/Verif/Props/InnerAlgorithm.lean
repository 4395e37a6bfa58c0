import Verif.Props.Issuer

/-! Property C106: the two signature algorithm fields of a certificate (RFC 5280 4.1.1.2). -/

namespace Verif.Props
open Verif.Model Verif.Proof Verif.Spec

/-- C106, full claim: an accepted certificate names the same algorithm in the signed part and next to the signature. -/
def C106_claim : Prop := ∀ (t : Tbs) (algorithm signature : List Byte) (c i : Cert), parseCertificate (certDer t algorithm signature) .Der = .ok c → c.verify i = .ok true →
  t.algorithm = algorithm

/-- C106: the field in the signed part is read by nobody. Certificates that differ in it only give the same object, but for the stored bytes. -/
theorem C106_fields_partial (t : Tbs) (a algorithm signature : List Byte) (h : Ordinary t) (hu : t.issuerUniqueID = none ∧ t.subjectUniqueID = none) (he : 17 ≤ t.exponent)
    (hser : t.serial < 2 ^ 128) (hl : (certDer { t with algorithm := a } algorithm signature).length < 2 ^ 64) :
    ∃ c, parseCertificate (certDer { t with algorithm := a } algorithm signature) .Der = .ok c ∧ Carries c t (certDer { t with algorithm := a } algorithm signature) := by
  obtain ⟨c, e, hc⟩ := C80_partial { t with algorithm := a } algorithm signature ⟨h.serial, h.issuer, h.subject, h.start, h.stop, h.key⟩ hu he hser hl
  exact ⟨c, e, ⟨hc.der, hc.serial, hc.issuer, hc.subject, hc.start, hc.stop, hc.key, hc.names⟩⟩

/-- A case that meets the hypotheses of `C106_fields_partial`. -/
example := C106_fields_partial (demoTbs 4711 65537 none) [5#8] [6#8] [7#8] (demoTbs_ordinary _ _ _ (by decide) (by decide +kernel)) ⟨rfl, rfl⟩ (by decide) (by decide) (by decide +kernel)

/-- C106: the algorithm next to the signature, which is not signed, is the one that is used; whatever is in the signed part, the certificate is accepted if and only
if the signature over it is good with that algorithm. -/
theorem C106_partial (t : Tbs) (a par sig : List Byte) (c i : Cert) (k : RsaPub) (h : HashClass) (alg : List Nat)
    (hc : parseCertificate (certDer { t with algorithm := a } (tlv 0x06#8 (oidContent alg) ++ par) sig) .Der = .ok c) (ht : Ordinary t)
    (hu : t.issuerUniqueID = none ∧ t.subjectUniqueID = none) (he : 17 ≤ t.exponent) (hser : t.serial < 2 ^ 128) (hi : i.pubkey = some k) (hk : KeyOk k)
    (ha : rsaSignatureAlgorithm h = some alg) (hl : (certDer { t with algorithm := a } (tlv 0x06#8 (oidContent alg) ++ par) sig).length < 2 ^ 24)
    (hs : sig.length = octetLength (value k.n)) (hlong : digestLength h + 30 ≤ sig.length) :
    ∃ b, c.verify i = .ok b ∧ (b = true ↔ Nested c i ∧ ∃ oid, hashOid h = some oid ∧
      emsaPkcs1 (digest h) oid (tbsDer { t with algorithm := a }) sig.length = some (i2osp (beNat sig ^ value k.e % value k.n) sig.length)) := by
  obtain ⟨c', e, hc'⟩ := C106_fields_partial t a (tlv 0x06#8 (oidContent alg) ++ par) sig ht hu he hser (by omega)
  rw [hc] at e
  have := Except.ok.inj e
  subst this
  exact verify_known c i k (tbsContent { t with algorithm := a }) par sig h alg (by rw [hc'.der]; rfl) hi hk ha (by rw [hc'.der]; exact hl) hs hlong

/-! A certificate that says it is signed with SHA-512, with a SHA-256 signature that is accepted. -/

def sha512Rsa : List Nat := [1, 2, 840, 113549, 1, 1, 13]
def mixedTbs : Tbs := { chainTbs 1 0x52#8 0x4c#8 (2 ^ 127 - 1) [] with algorithm := tlv 0x06#8 (oidContent sha512Rsa) ++ tlv 0x05#8 [] }
def mixedDigest : List Byte := [0x23#8, 0x40#8, 0x14#8, 0x6c#8, 0x16#8, 0x5d#8, 0x24#8, 0xd7#8, 0xa3#8, 0x07#8, 0x21#8, 0x7f#8, 0xe8#8, 0x39#8, 0x6c#8, 0x3e#8, 0x15#8, 0x2d#8, 0x15#8, 0x10#8, 0x23#8, 0xea#8, 0x00#8, 0x74#8, 0xe9#8, 0x17#8, 0xc8#8, 0xf7#8, 0xf1#8, 0x97#8, 0x63#8, 0x63#8]
def mixedModulus : Nat := 536870912 ^ 17 - beNat (emOf mixedDigest)
def mixedDer : List Byte := certDer mixedTbs chainAlg (i2osp 536870912 62)

theorem mixedDigest_eq : digest .sha2_256 (tbsDer mixedTbs) = mixedDigest := by
  rw [← hashOf_eq .sha2_256 _ (by decide +kernel)]
  decide +kernel

theorem mixed_numbers : (2 ^ 488 ≤ mixedModulus ∧ mixedModulus < 2 ^ 495 ∧ mixedModulus % 2 = 1) ∧ mixedDer.length < 2 ^ 24 ∧
    i2osp (beNat (i2osp 536870912 62) ^ 17 % mixedModulus) 62 = emOf mixedDigest := by decide +kernel

theorem mixed_parse : ∃ c, parseCertificate mixedDer .Der = .ok c ∧ Carries c mixedTbs mixedDer := by
  obtain ⟨c, e, hc⟩ := C106_fields_partial (chainTbs 1 0x52#8 0x4c#8 (2 ^ 127 - 1) []) mixedTbs.algorithm chainAlg (i2osp 536870912 62)
    ⟨by decide, cn_ok _ (by simp [Letter]), cn_ok _ (by simp [Letter]), demoStart, demoStop, by decide +kernel, by change 17 < 2 ^ 4096; decide +kernel, by decide +kernel, by decide +kernel⟩
    ⟨rfl, rfl⟩ (Nat.le_refl _) (by decide) (Nat.lt_trans mixed_numbers.2.1 (by decide))
  exact ⟨c, e, ⟨hc.der, hc.serial, hc.issuer, hc.subject, hc.start, hc.stop, hc.key, hc.names⟩⟩

theorem mixed_root : ∃ i, parseCertificate (certDer (chainTbs 3 0x52#8 0x52#8 mixedModulus []) chainAlg []) .Der = .ok i ∧
    Carries i (chainTbs 3 0x52#8 0x52#8 mixedModulus []) (certDer (chainTbs 3 0x52#8 0x52#8 mixedModulus []) chainAlg []) :=
  chain_parse 3 0x52#8 0x52#8 mixedModulus [] [] (by simp [Letter]) (by simp [Letter])
    ⟨Nat.lt_trans mixed_numbers.1.2.1 (by decide +kernel), mixed_numbers.1.2.2, by have := mixed_numbers.1.1; omega⟩ (by decide) (by decide +kernel)

/-- The certificate is accepted under a parsed issuer; the hypotheses of the theorems above hold for it. -/
theorem C106_mixed : ∃ c i, parseCertificate mixedDer .Der = .ok c ∧
    parseCertificate (certDer (chainTbs 3 0x52#8 0x52#8 mixedModulus []) chainAlg []) .Der = .ok i ∧ c.verify i = .ok true := by
  obtain ⟨c, e, hc⟩ := mixed_parse
  obtain ⟨i, ei, hi⟩ := mixed_root
  exact ⟨c, i, e, ei, chain_link mixedTbs _ _ _ mixedDigest c i hc hi mixedDigest_eq rfl mixed_numbers.2.1 rfl rfl rfl mixed_numbers.1 (i2osp_length _ _) mixed_numbers.2.2⟩

/-- C106 fails. -/
theorem C106_false : ¬ C106_claim := by
  intro h
  obtain ⟨c, i, e, _, hv⟩ := C106_mixed
  exact absurd (h mixedTbs chainAlg _ c i e hv) (by decide +kernel)

end Verif.Props
