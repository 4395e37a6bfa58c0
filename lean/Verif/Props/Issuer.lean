import Verif.Props.VerifyWitness
import Verif.Props.Cert

/-! Property C79: whether issuers have to be certificate authorities. -/

namespace Verif.Props
open Verif.Model Verif.Proof Verif.Spec

/-- The bytes are the encoding of a certificate with basicConstraints cA TRUE. -/
def MarkedCA (der : List Byte) : Prop := ∃ t algorithm signature, der = certDer t algorithm signature ∧ t.isCA

/-- C79, full claim, for certificates that come out of `parseCertificate`. -/
def C79_claim : Prop := ∀ (added certs certs' : List Cert) (now : U64), (∀ c ∈ added ++ certs, parseCertificate c.derCert .Der = .ok c) →
  (storeOf added).trust certs now = .ok (true, certs') →
  ∃ chain root, ChainTo (storeOf added) certs chain root ∧ ∀ c ∈ (chain ++ [root]).tail, MarkedCA c.derCert

/-! What the code does instead: the extensions have no influence. -/

/-- `verify` uses the dates and the key of the issuer only. -/
theorem C79_issuer_fields (c i j : Cert) (h1 : i.validity_start = j.validity_start) (h2 : i.validity_end = j.validity_end) (h3 : i.pubkey = j.pubkey) :
    c.verify i = c.verify j := by
  rw [Cert.verify, Cert.verify, h1, h2, h3]

/-- A case that meets the hypotheses of `C79_issuer_fields`. -/
example := fun c i : Cert => C79_issuer_fields c i { i with subject := [1#8], issuer := [2#8] } rfl rfl rfl

/-- Certificates that differ in the extensions only, and in the signatures, are equally good issuers, for every certificate. -/
theorem C79_extensions_ignored (t : Tbs) (extensions : List Extension) (a1 s1 a2 s2 : List Byte) (h : Ordinary t) (hu : t.issuerUniqueID = none ∧ t.subjectUniqueID = none)
    (he : 17 ≤ t.exponent) (hl1 : (certDer t a1 s1).length < 2 ^ 64) (hl2 : (certDer { t with extensions := extensions } a2 s2).length < 2 ^ 64) :
    ∃ i j, parseCertificate (certDer t a1 s1) .Der = .ok i ∧ parseCertificate (certDer { t with extensions := extensions } a2 s2) .Der = .ok j ∧
      j.subject = i.subject ∧ ∀ c : Cert, c.verify i = c.verify j := by
  have e1 := parse_cert t a1 s1 h.issuer.1 h.subject.1 h.start h.stop h.key hl1
  have e2 := parse_cert { t with extensions := extensions } a2 s2 h.issuer.1 h.subject.1 h.start h.stop h.key hl2
  rw [if_neg (by omega), if_neg (by simpa using hu)] at e1
  rw [if_neg (by dsimp only; omega), if_neg (by simpa using hu)] at e2
  obtain ⟨i, p1, _, _, _, q1, r1, r2, ⟨k1, x1, x2, x3, x4, x5, x6⟩, _⟩ := e1
  obtain ⟨j, p2, _, _, _, q2, r3, r4, ⟨k2, y1, y2, y3, y4, y5, y6⟩, _⟩ := e2
  refine ⟨i, j, p1, p2, ?_, fun c => C79_issuer_fields c i j ?_ ?_ ?_⟩
  · exact Except.ok.inj (q2.symm.trans q1)
  · exact BitVec.eq_of_toNat_eq (by dsimp only at r3; omega)
  · exact BitVec.eq_of_toNat_eq (by dsimp only at r4; omega)
  · have hn : k1.n = k2.n := value_inj (x2.trans y2.symm) (x4.trans y4.symm)
    have he : k1.e = k2.e := value_inj (x3.trans y3.symm) (x5.trans y5.symm)
    rw [hn, he, y6] at x6
    rw [x1, y1, Except.ok.inj x6]

/-- The hypotheses hold for the example of C80, whose extensions mark it as an authority, and no extensions instead. -/
example : Ordinary (demoTbs 4711 65537 none) ∧ (certDer (demoTbs 4711 65537 none) [] []).length < 2 ^ 64 ∧
    (certDer { demoTbs 4711 65537 none with extensions := [] } [] []).length < 2 ^ 64 ∧ (demoTbs 4711 65537 none).isCA :=
  ⟨demoTbs_ordinary _ _ _ (by decide) (by decide +kernel), by decide +kernel, by decide +kernel, _, List.mem_singleton.mpr rfl, rfl, [], by rw [List.append_nil]⟩

/-! The counterexample: a store with a certificate authority R, a certificate for M signed by R without extensions, and a certificate for L signed
with M's key. -/

/-- A name with a common name. -/
def cn (b : Byte) : DistinguishedName := [[⟨oidContent [2, 5, 4, 3], 12#8, [b]⟩]]

def chainTbs (serial : Nat) (issuer subject : Byte) (modulus : Nat) (extensions : List Extension) : Tbs where
  serial := serial
  algorithm := tlv 0x06#8 (oidContent sha256Rsa) ++ tlv 0x05#8 []
  issuer := cn issuer
  notBefore := ⟨2024, 2, 29, 12, 0, 0⟩
  notAfter := ⟨2050, 12, 31, 23, 59, 59⟩
  subject := cn subject
  parameters := tlv 0x05#8 []
  modulus := modulus
  exponent := 17
  issuerUniqueID := none
  subjectUniqueID := none
  extensions := extensions

def emOf (d : List Byte) : List Byte := [0x00#8, 0x01#8] ++ List.replicate 8 0xFF#8 ++ [0x00#8] ++ digestInfo sha256Id d

def leafTbs : Tbs := chainTbs 1 0x4d#8 0x4c#8 (2 ^ 127 - 1) []
def leafDigest : List Byte := [0xe7#8, 0xcd#8, 0xb4#8, 0xb6#8, 0x73#8, 0xf9#8, 0xc6#8, 0x2a#8, 0xe3#8, 0x84#8, 0x2f#8, 0x10#8, 0x0f#8, 0x1f#8, 0x68#8, 0xb4#8, 0xab#8, 0xec#8, 0xe8#8, 0x82#8, 0x8d#8, 0x80#8, 0x1d#8, 0xba#8, 0x5d#8, 0x01#8, 0xed#8, 0x52#8, 0x1e#8, 0xc8#8, 0x69#8, 0xf0#8]
def midModulus : Nat := 536870913 ^ 17 - beNat (emOf leafDigest)
def midTbs : Tbs := chainTbs 2 0x52#8 0x4d#8 midModulus []
def midDigest : List Byte := [0xb2#8, 0xac#8, 0x04#8, 0x04#8, 0x04#8, 0xf5#8, 0x8a#8, 0xf9#8, 0xdb#8, 0x01#8, 0x4b#8, 0xd0#8, 0x81#8, 0x07#8, 0xa7#8, 0x8a#8, 0xca#8, 0x54#8, 0xbd#8, 0x27#8, 0x07#8, 0x2a#8, 0x38#8, 0x6a#8, 0x69#8, 0x0d#8, 0x92#8, 0xd3#8, 0xe0#8, 0x35#8, 0x00#8, 0x33#8]
def rootModulus : Nat := 536870912 ^ 17 - beNat (emOf midDigest)
def rootTbs : Tbs := chainTbs 3 0x52#8 0x52#8 rootModulus [⟨basicConstraints, true, tlv 0x30#8 (tlv 0x01#8 [0xff#8])⟩]

def chainAlg : List Byte := tlv 0x06#8 (oidContent sha256Rsa) ++ tlv 0x05#8 []
def leafDer : List Byte := certDer leafTbs chainAlg (i2osp 536870913 62)
def midDer : List Byte := certDer midTbs chainAlg (i2osp 536870912 62)
def rootDer : List Byte := certDer rootTbs chainAlg []

theorem leafDigest_eq : digest .sha2_256 (tbsDer leafTbs) = leafDigest := by
  rw [← hashOf_eq .sha2_256 _ (by decide +kernel)]
  decide +kernel

theorem midDigest_eq : digest .sha2_256 (tbsDer midTbs) = midDigest := by
  rw [← hashOf_eq .sha2_256 _ (by decide +kernel)]
  decide +kernel

/-- The three names. -/
def Letter (b : Byte) : Prop := b = 0x4c#8 ∨ b = 0x4d#8 ∨ b = 0x52#8

theorem cn_ok (b : Byte) (hb : Letter b) : Encodable (cn b) ∧ Plain (cn b) := by
  refine ⟨⟨by simp [cn], ?_⟩, ⟨?_, by simp [cn]⟩⟩
  · rcases hb with rfl | rfl | rfl <;> decide +kernel
  · intro r hr
    rw [cn, List.mem_singleton] at hr
    subst hr
    refine ⟨_, rfl, ?_, Or.inr rfl, by simp, ?_⟩
    · change oidContent [2, 5, 4, 3] ∈ attributeTypes.map oidContent
      decide +kernel
    · rcases hb with rfl | rfl | rfl <;> decide

/-- What is needed to have these certificates parsed. -/
theorem chain_parse (serial : Nat) (i s : Byte) (m : Nat) (ext : List Extension) (sig : List Byte) (hi : Letter i) (hs : Letter s)
    (hm : m < 2 ^ 4096 ∧ m % 2 = 1 ∧ 1 < m) (hser : serial < 2 ^ 128) (hl : (certDer (chainTbs serial i s m ext) chainAlg sig).length < 2 ^ 64) :
    ∃ c, parseCertificate (certDer (chainTbs serial i s m ext) chainAlg sig) .Der = .ok c ∧
      Carries c (chainTbs serial i s m ext) (certDer (chainTbs serial i s m ext) chainAlg sig) :=
  C80_partial _ _ _ ⟨Nat.lt_trans hser (by change 2 ^ 128 < 2 ^ 159; decide), cn_ok i hi, cn_ok s hs, demoStart, demoStop, ⟨hm.1, by change 17 < 2 ^ 4096; decide +kernel, hm.2.1, hm.2.2⟩⟩
    ⟨rfl, rfl⟩ (Nat.le_refl _) hser hl

theorem cn_string : nameString (cn 0x4c#8) = .ok (ascii "CN=L") ∧ nameString (cn 0x4d#8) = .ok (ascii "CN=M") ∧ nameString (cn 0x52#8) = .ok (ascii "CN=R") := by
  decide +kernel

theorem chain_numbers : (2 ^ 488 ≤ midModulus ∧ midModulus < 2 ^ 495 ∧ midModulus % 2 = 1) ∧ (2 ^ 488 ≤ rootModulus ∧ rootModulus < 2 ^ 495 ∧ rootModulus % 2 = 1) ∧
    leafDer.length < 2 ^ 24 ∧ midDer.length < 2 ^ 24 ∧ rootDer.length < 2 ^ 24 := by decide +kernel

theorem chain_signatures : i2osp (beNat (i2osp 536870913 62) ^ 17 % midModulus) 62 = emOf leafDigest ∧ i2osp (beNat (i2osp 536870912 62) ^ 17 % rootModulus) 62 = emOf midDigest := by
  decide +kernel

/-- One link of the chain: a certificate with this digest verifies under an issuer with this modulus. -/
theorem chain_link (t u : Tbs) (sig usig d : List Byte) (c i : Cert) (hc : Carries c t (certDer t chainAlg sig)) (hi : Carries i u (certDer u chainAlg usig))
    (hd : digest .sha2_256 (tbsDer t) = d) (hdl : d.length = 32) (hl : (certDer t chainAlg sig).length < 2 ^ 24) (h1 : u.notBefore = t.notBefore) (h2 : u.notAfter = t.notAfter) (h3 : u.exponent = 17)
    (h4 : 2 ^ 488 ≤ u.modulus ∧ u.modulus < 2 ^ 495 ∧ u.modulus % 2 = 1) (hs : sig.length = 62) (h5 : i2osp (beNat sig ^ 17 % u.modulus) 62 = emOf d) :
    c.verify i = .ok true := by
  obtain ⟨k, kp, l1, l2, v1, v2, made⟩ := hi.key
  have hk : KeyOk k := ⟨l1, l2, by rw [v1]; exact h4.2.2, by rw [v1]; omega, made⟩
  have ho : octetLength (value k.n) = 62 := by rw [v1]; exact octetLength_eq (k := 61) h4.1 (by omega)
  obtain ⟨b, hb, hbi⟩ := verify_known c i k (tbsContent t) (tlv 0x05#8 []) sig .sha2_256 sha256Rsa (by rw [hc.der]; rfl) kp hk rfl (by rw [hc.der]; exact hl) (by rw [hs, ho])
    (by rw [hs]; decide)
  have hbt : b = true := by
    rw [hbi]
    refine ⟨⟨?_, ?_⟩, sha256Id, rfl, ?_⟩
    · rw [BitVec.le_def]
      have a1 := hc.start
      have a2 := hi.start
      rw [h1] at a2
      omega
    · rw [BitVec.le_def]
      have a1 := hc.stop
      have a2 := hi.stop
      rw [h2] at a2
      omega
    · rw [hs, v1, v2, h3, h5]
      change emsaPkcs1 (digest .sha2_256) sha256Id (tbsDer t) 62 = _
      have hT : (digestInfo sha256Id d).length = 51 := by
        rw [← hd]
        exact digestInfo_length (h := .sha2_256) (alg := sha256Rsa) rfl rfl _ (by
          have := le_tlv 0x30#8 (tbsDer t ++ (tlv 0x30#8 chainAlg ++ tlv 0x03#8 (0x00#8 :: sig)))
          rw [← certDer, List.length_append] at this
          omega)
      rw [emsaPkcs1]
      rw [hd, hT, if_neg (by decide)]
      rfl
  rw [hb, hbt]

/-- A certificate marked as an authority contains the identifier of the extension. -/
theorem marked_infix (der : List Byte) (h : MarkedCA der) : tlv 0x06#8 (oidContent basicConstraints) <:+: der := by
  obtain ⟨t, a, s, rfl, e, he, ho, _⟩ := h
  have tl : ∀ (tag : Byte) (l m : List Byte), l <:+: m → l <:+: tlv tag m := fun tag l m h => h.trans (by rw [tlv]; exact ((List.suffix_append _ _).trans (List.suffix_cons _ _)).isInfix)
  have ap : ∀ (l m n : List Byte), l <:+: n → l <:+: m ++ n := fun l m n h => h.trans (List.suffix_append _ _).isInfix
  have ap' : ∀ (l m n : List Byte), l <:+: m → l <:+: m ++ n := fun l m n h => h.trans (List.prefix_append _ _).isInfix
  rw [certDer]
  refine tl _ _ _ (ap' _ _ _ (tl _ _ _ ?_))
  rw [tbsContent]
  refine ap _ _ _ (ap _ _ _ (ap _ _ _ (ap _ _ _ (ap _ _ _ (ap _ _ _ (ap _ _ _ (ap _ _ _ (ap _ _ _ ?_))))))))
  rw [extensionsDer, if_neg (by rw [List.isEmpty_iff]; exact List.ne_nil_of_mem he)]
  refine tl _ _ _ (tl _ _ _ ?_)
  obtain ⟨p, q, hpq⟩ := List.append_of_mem he
  rw [hpq, List.flatMap_append, List.flatMap_cons]
  refine ap _ _ _ (ap' _ _ _ ?_)
  rw [extensionDer, ho]
  refine tl _ _ _ (ap' _ _ _ (ap' _ _ _ List.infix_rfl))

theorem mid_unmarked : ¬ MarkedCA midDer := fun h => absurd (marked_infix _ h) (by decide +kernel)

/-- A chain of three parsed certificates that is trusted: L, issued by M, issued by R in the store; M is not marked as an authority. -/
theorem chain_demo : ∃ leaf mid root certs', parseCertificate leaf.derCert .Der = .ok leaf ∧ parseCertificate mid.derCert .Der = .ok mid ∧
    parseCertificate root.derCert .Der = .ok root ∧ leaf.subject = ascii "CN=L" ∧ leaf.issuer = ascii "CN=M" ∧ mid.subject = ascii "CN=M" ∧
    mid.issuer = ascii "CN=R" ∧ root.subject = ascii "CN=R" ∧ leaf.verify mid = .ok true ∧ mid.verify root = .ok true ∧ mid.derCert = midDer ∧ leaf.derCert = leafDer ∧ root.derCert = rootDer ∧
    (storeOf [root]).trust [leaf, mid] leaf.validity_start = .ok (true, certs') := by
  obtain ⟨⟨m1, m2, m3⟩, ⟨r1, r2, r3⟩, L1, L2, L3⟩ := chain_numbers
  have pow : 2 ^ 495 < 2 ^ 4096 := by decide +kernel
  obtain ⟨leaf, pl, cl⟩ := chain_parse 1 0x4d#8 0x4c#8 (2 ^ 127 - 1) [] (i2osp 536870913 62) (by simp [Letter]) (by simp [Letter]) (by decide +kernel) (by decide) (Nat.lt_trans L1 (by decide))
  obtain ⟨mid, pm, cm⟩ := chain_parse 2 0x52#8 0x4d#8 midModulus [] (i2osp 536870912 62) (by simp [Letter]) (by simp [Letter]) ⟨Nat.lt_trans m2 pow, m3, by omega⟩ (by decide) (Nat.lt_trans L2 (by decide))
  obtain ⟨root, pr, cr⟩ := chain_parse 3 0x52#8 0x52#8 rootModulus [⟨basicConstraints, true, tlv 0x30#8 (tlv 0x01#8 [0xff#8])⟩] [] (by simp [Letter]) (by simp [Letter])
    ⟨Nat.lt_trans r2 pow, r3, by omega⟩ (by decide) (Nat.lt_trans L3 (by decide))
  have v1 : leaf.verify mid = .ok true := chain_link _ _ _ _ leafDigest leaf mid cl cm leafDigest_eq rfl L1 rfl rfl rfl ⟨m1, m2, m3⟩ (i2osp_length _ _) chain_signatures.1
  have v2 : mid.verify root = .ok true := chain_link _ _ _ _ midDigest mid root cm cr midDigest_eq rfl L2 rfl rfl rfl ⟨r1, r2, r3⟩ (i2osp_length _ _) chain_signatures.2
  have sl : leaf.subject = ascii "CN=L" := Except.ok.inj (cl.subject.symm.trans cn_string.1)
  have il : leaf.issuer = ascii "CN=M" := Except.ok.inj (cl.issuer.symm.trans cn_string.2.1)
  have sm : mid.subject = ascii "CN=M" := Except.ok.inj (cm.subject.symm.trans cn_string.2.1)
  have im : mid.issuer = ascii "CN=R" := Except.ok.inj (cm.issuer.symm.trans cn_string.2.2)
  have sr : root.subject = ascii "CN=R" := Except.ok.inj (cr.subject.symm.trans cn_string.2.2)
  have d1 : ascii "CN=L" ≠ ascii "CN=M" := by decide
  have d2 : ascii "CN=L" ≠ ascii "CN=R" := by decide
  have d3 : ascii "CN=M" ≠ ascii "CN=R" := by decide
  have get : ∀ n, (storeOf [root]).get n = if n = ascii "CN=R" then some root else none := by
    intro n
    rw [C78_get]
    by_cases h : n = ascii "CN=R"
    · simp [sr, h]
    · rw [if_neg h]; simp [sr, Ne.symm h]
  obtain ⟨certs', ht⟩ := C77_partial [root] [leaf, mid] [leaf, mid] root leaf.validity_start (by simp [sl, sm, d1])
    ⟨rfl, by simp, by simp, by simp [il, sm, im, sr, v1, v2], by rw [get, sr, if_pos rfl]⟩
    (fun c hc => by
      injection hc with hc; subst hc
      refine ⟨BitVec.le_refl _, ?_⟩
      rw [BitVec.le_def]
      have a1 := cl.start
      have a2 := cl.stop
      have : unixTime (chainTbs 1 0x4d#8 0x4c#8 (2 ^ 127 - 1) []).notBefore ≤ unixTime (chainTbs 1 0x4d#8 0x4c#8 (2 ^ 127 - 1) []).notAfter := by decide +kernel
      omega)
    (fun c hc => by
      simp only [List.mem_cons, List.not_mem_nil, or_false] at hc
      rw [get]
      rcases hc with rfl | rfl
      · rw [sl, if_neg d2]
      · rw [sm, if_neg d3])
    (fun c hc i hi hn => by
      have hi' : i = root ∨ i = leaf ∨ i = mid := by
        rcases hi with ⟨n, hn⟩ | hi
        · rw [get] at hn
          split at hn
          · left; exact (Option.some.inj hn).symm
          · exact nomatch hn
        · right; simpa using hi
      simp only [List.mem_cons, List.not_mem_nil, or_false] at hc
      rcases hc with rfl | rfl <;> rcases hi' with rfl | rfl | rfl
      · rw [sr, il] at hn; exact absurd hn.symm d3
      · rw [sl, il] at hn; exact absurd hn d1
      · exact ⟨_, v1⟩
      · exact ⟨_, v2⟩
      · rw [sl, im] at hn; exact absurd hn d2
      · rw [sm, im] at hn; exact absurd hn d3)
  exact ⟨leaf, mid, root, certs', by rw [cl.der]; exact pl, by rw [cm.der]; exact pm, by rw [cr.der]; exact pr, sl, il, sm, im, sr, v1, v2, cm.der, cl.der, cr.der, ht⟩

/-- C79 fails: R, in the store, signed a certificate for M that is not marked as an authority, and a certificate signed with M's key is trusted. -/
theorem C79_false : ¬ C79_claim := by
  intro claim
  obtain ⟨leaf, mid, root, certs', pl, pm, pr, sl, il, sm, im, sr, v1, v2, dm, _, _, ht⟩ := chain_demo
  have d1 : ascii "CN=L" ≠ ascii "CN=M" := by decide
  have d3 : ascii "CN=M" ≠ ascii "CN=R" := by decide
  have get : ∀ n, (storeOf [root]).get n = if n = ascii "CN=R" then some root else none := by
    intro n
    rw [C78_get]
    by_cases h : n = ascii "CN=R"
    · simp [sr, h]
    · rw [if_neg h]; simp [sr, Ne.symm h]
  obtain ⟨chain, rt, hch, hm⟩ := claim [root] [leaf, mid] certs' leaf.validity_start (by
    intro c hc
    simp only [List.mem_cons, List.not_mem_nil, or_false, List.cons_append, List.nil_append] at hc
    rcases hc with rfl | rfl | rfl
    · exact pr
    · exact pl
    · exact pm) ht
  -- the second certificate of the chain is the one for M
  have hroot : rt = root := by
    have := hch.root
    rw [get] at this
    split at this
    · exact (Option.some.inj this).symm
    · exact nomatch this
  subst hroot
  obtain ⟨x, tl, hx⟩ : ∃ x tl, chain = x :: tl := by
    cases hc : chain with
    | nil => exact absurd hc hch.nonempty
    | cons x tl => exact ⟨x, tl, rfl⟩
  have hxl : x = leaf := by have := hch.head; rw [hx] at this; exact Option.some.inj this
  subst hxl
  have hlinks := hch.links
  have hmem := hch.members
  rw [hx] at hlinks hmem hm
  cases tl with
  | nil =>
    rw [List.cons_append, List.nil_append, List.isChain_cons_cons] at hlinks
    have := hlinks.1.1
    rw [il, sr] at this
    exact d3 this
  | cons y tl =>
    rw [List.cons_append, List.cons_append, List.isChain_cons_cons] at hlinks
    have hn := hlinks.1.1
    have hy : y = x ∨ y = mid := by simpa using hmem y (by simp)
    rcases hy with rfl | rfl
    · rw [il, sl] at hn; exact d1 hn.symm
    · have := hm y (by simp)
      rw [dm] at this
      exact mid_unmarked this

end Verif.Props
