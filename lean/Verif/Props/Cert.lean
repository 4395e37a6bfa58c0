import Verif.Proof.Cert
import Verif.Props.Name

/-! Property C80: `parseCertificate` (src/X509Certificate.cpp:251-336). -/

namespace Verif.Props
open Verif.Model Verif.Proof Verif.Spec

/-- The value of the last commonName attribute, empty if there is none. -/
def commonName (n : DistinguishedName) : List Byte :=
  (n.flatten.reverse.find? (fun a => decide (a.oid = oidContent [2, 5, 4, 3]))).elim [] Attr.value

/-- A date the library converts correctly (C71). -/
def GoodDate (d : DateTime) : Prop := d.Valid ∧ 1970 ≤ d.year ∧ Before2100 d

/-- An RSA key that fits `rsa_public_key<4096>`. -/
def GoodKey (n e : Nat) : Prop := n < 2 ^ 4096 ∧ e < 2 ^ 4096 ∧ n % 2 = 1 ∧ 1 < n

/-- The certificate object has the fields of the encoded certificate: `der` is the encoding it was read from. -/
structure Carries (c : Cert) (t : Tbs) (der : List Byte) : Prop where
  der : c.derCert = der
  serial : value c.serialNumber = t.serial
  issuer : nameString t.issuer = .ok c.issuer
  subject : nameString t.subject = .ok c.subject
  start : (c.validity_start.toNat : Int) = unixTime t.notBefore
  stop : (c.validity_end.toNat : Int) = unixTime t.notAfter
  key : ∃ k, c.pubkey = some k ∧ k.n.length = 128 ∧ k.e.length = 128 ∧ value k.n = t.modulus ∧ value k.e = t.exponent ∧ rsaPubNew 4096 k.n k.e = .ok k
  names : ∀ fqdn, c.appliesTo fqdn = true ↔ fqdn = commonName t.subject

/-- What the claim assumes: plain names, dates that are converted correctly, and a serial number of at most 20 octets. -/
structure Ordinary (t : Tbs) : Prop where
  serial : t.serial < 2 ^ 159
  issuer : Encodable t.issuer ∧ Plain t.issuer
  subject : Encodable t.subject ∧ Plain t.subject
  start : GoodDate t.notBefore
  stop : GoodDate t.notAfter
  key : GoodKey t.modulus t.exponent

/-- C80, full claim. -/
def C80_claim : Prop := ∀ (t : Tbs) (algorithm signature : List Byte), Ordinary t → (certDer t algorithm signature).length < 2 ^ 64 →
  ∃ c, parseCertificate (certDer t algorithm signature) .Der = .ok c ∧ Carries c t (certDer t algorithm signature)

/-- The content of a TBSCertificate with any content `spki` of the SubjectPublicKeyInfo. -/
def tbsWith (t : Tbs) (spki : List Byte) : List Byte :=
  tlv 0xa0#8 (integerDer 2) ++ (integerDer t.serial ++ (tlv 0x30#8 t.algorithm ++ (tlv 0x30#8 (nameDer t.issuer) ++
  (tlv 0x30#8 (timeDer t.notBefore ++ timeDer t.notAfter) ++ (tlv 0x30#8 (nameDer t.subject) ++ (tlv 0x30#8 spki ++ tailDer t))))))

/-- Everything but the key, for names of any kind, any content of the SubjectPublicKeyInfo, and any bytes behind the TBSCertificate, inside the
outer SEQUENCE (`X`) and behind it (`Y`). -/
theorem parse_tbs_any (t : Tbs) (spki X Y : List Byte) (hi : Encodable t.issuer) (hs : Encodable t.subject) (hd1 : GoodDate t.notBefore) (hd2 : GoodDate t.notAfter)
    (hl : (tlv 0x30#8 (tlv 0x30#8 (tbsWith t spki) ++ X)).length < 2 ^ 64) :
    ∃ (x : List U32) (t1 t2 : U64), value x = t.serial % 2 ^ 128 ∧ (t1.toNat : Int) = unixTime t.notBefore ∧ (t2.toNat : Int) = unixTime t.notAfter ∧
      parseCertificate (tlv 0x30#8 (tlv 0x30#8 (tbsWith t spki) ++ X) ++ Y) .Der = (do
        let k ← parsePublicKey (viewOf ⟨spki ++ (tailDer t ++ (X ++ Y)), spki.length⟩)
        return if t.issuerUniqueID ≠ none ∨ t.subjectUniqueID ≠ none then {} else
          ⟨tlv 0x30#8 (tlv 0x30#8 (tbsWith t spki) ++ X) ++ Y, x, [(nameFold {} t.subject).common_name], nameToString (nameFold {} t.subject), nameToString (nameFold {} t.issuer), t1, t2, k⟩) := by
  have L0 := le_tlv 0x30#8 (tlv 0x30#8 (tbsWith t spki) ++ X)
  have L1 := le_tlv 0x30#8 (tbsWith t spki)
  have L2 := le_tlv 0x02#8 (integerContent t.serial)
  have L3 := le_tlv 0x30#8 t.algorithm
  have L4 := le_tlv 0x30#8 (nameDer t.issuer)
  have L5 := le_tlv 0x30#8 (timeDer t.notBefore ++ timeDer t.notAfter)
  have L6 := le_tlv 0x30#8 (nameDer t.subject)
  have L7 := le_tlv 0x30#8 spki
  rw [List.length_append] at L0
  rw [← integerDer] at L2
  have L8 : (tbsWith t spki).length = (tlv 0xa0#8 (integerDer 2)).length + (integerDer t.serial).length + (tlv 0x30#8 t.algorithm).length +
      (tlv 0x30#8 (nameDer t.issuer)).length + (tlv 0x30#8 (timeDer t.notBefore ++ timeDer t.notAfter)).length + (tlv 0x30#8 (nameDer t.subject)).length +
      (tlv 0x30#8 spki).length + (tailDer t).length := by
    rw [tbsWith]
    simp only [List.length_append]; omega
  -- the outer elements
  have A0 : At (viewOf (spanOf (tlv 0x30#8 (tlv 0x30#8 (tbsWith t spki) ++ X) ++ Y))) (tlv 0x30#8 (tlv 0x30#8 (tbsWith t spki) ++ X) ++ Y) [] := at_whole _
  obtain ⟨w0, e0, _⟩ := read_tlv A0 (by rw [List.length_append]; omega)
  rw [List.append_nil] at e0
  have A1 := at_view (tlv 0x30#8 (tbsWith t spki) ++ X) Y
  obtain ⟨w1, e1, _⟩ := read_tlv A1 (by omega)
  generalize hP1 : X ++ Y = P1 at e1
  have A2 := at_view (tbsWith t spki) P1
  have A3 : At (viewOf ⟨tbsWith t spki ++ P1, (tbsWith t spki).length⟩) (tlv 0xa0#8 (integerDer 2) ++ (integerDer t.serial ++ (tlv 0x30#8 t.algorithm ++ (tlv 0x30#8 (nameDer t.issuer) ++
      (tlv 0x30#8 (timeDer t.notBefore ++ timeDer t.notAfter) ++ (tlv 0x30#8 (nameDer t.subject) ++ (tlv 0x30#8 spki ++
      tailDer t))))))) P1 := A2
  obtain ⟨v2, e2, A4⟩ := parseVersion_spec A3
  obtain ⟨x, v3, e3, A5, _, vx⟩ := parseBignum_spec 4 A4 (by omega)
  rw [show 32 * 4 = 128 from rfl] at e3 vx
  obtain ⟨v4, e4, A6⟩ := read_tlv A5 (by omega)
  obtain ⟨v5, e5, A7⟩ := read_tlv A6 (by omega)
  generalize hP2 : (tlv 0x30#8 (timeDer t.notBefore ++ timeDer t.notAfter) ++ (tlv 0x30#8 (nameDer t.subject) ++ (tlv 0x30#8 spki ++
      tailDer t))) ++ P1 = P2 at e5
  obtain ⟨w5, e6⟩ := parseName_spec hi.1 hi.2 (at_view (nameDer t.issuer) P2)
  obtain ⟨v6, e7, A8⟩ := read_tlv A7 (by omega)
  generalize hP3 : (tlv 0x30#8 (nameDer t.subject) ++ (tlv 0x30#8 spki ++ tailDer t)) ++ P1 = P3 at e7
  obtain ⟨t1, w6, e8, B1, ht1⟩ := parseDate_spec (at_view (timeDer t.notBefore ++ timeDer t.notAfter) P3) hd1.1 hd1.2.1 hd1.2.2
  have B1' : At w6 (timeDer t.notAfter ++ []) P3 := by rw [List.append_nil]; exact B1
  obtain ⟨t2, w7, e9, _, ht2⟩ := parseDate_spec B1' hd2.1 hd2.2.1 hd2.2.2
  obtain ⟨v7, e10, A9⟩ := read_tlv A8 (by omega)
  generalize hP4 : (tlv 0x30#8 spki ++ tailDer t) ++ P1 = P4 at e10
  obtain ⟨w8, e11⟩ := parseName_spec hs.1 hs.2 (at_view (nameDer t.subject) P4)
  obtain ⟨v8, e12, A10⟩ := read_tlv A9 (by omega)
  have htail := tailLoop_tail A10 (by omega)
  have start : parseCertificate (tlv 0x30#8 (tlv 0x30#8 (tbsWith t spki) ++ X) ++ Y) .Der = parseFields v2 (tlv 0x30#8 (tlv 0x30#8 (tbsWith t spki) ++ X) ++ Y) := by
    rw [parseCertificate, parseCertDer, e0, ok_bind, if_neg (by simp), e1, ok_bind, if_neg (by simp), e2, ok_bind]
  refine ⟨x, t1, t2, vx, ht1, ht2, ?_⟩
  rw [start, parseFields, e3, ok_bind, e4, ok_bind, if_neg (by simp), e5, ok_bind, if_neg (by simp), e6, ok_bind, e7, ok_bind, if_neg (by simp), e8, ok_bind, e9, ok_bind,
    e10, ok_bind, if_neg (by simp), e11, ok_bind, e12, ok_bind, if_neg (by simp)]
  congr 1
  funext k
  rw [htail, ok_bind]
  by_cases hu : t.issuerUniqueID ≠ none ∨ t.subjectUniqueID ≠ none
  · rw [decide_eq_false (by simpa [or_iff_not_imp_left] using hu), if_neg (by simp), if_pos hu]
  · rw [decide_eq_true (by simpa using hu), if_pos rfl, if_neg hu]

/-- The same for an encoded key. -/
theorem parse_cert_any (t : Tbs) (algorithm signature : List Byte) (hi : Encodable t.issuer) (hs : Encodable t.subject) (hd1 : GoodDate t.notBefore) (hd2 : GoodDate t.notAfter)
    (hl : (certDer t algorithm signature).length < 2 ^ 64) :
    ∃ (x : List U32) (t1 t2 : U64) (v : View) (P : List Byte), value x = t.serial % 2 ^ 128 ∧ (t1.toNat : Int) = unixTime t.notBefore ∧ (t2.toNat : Int) = unixTime t.notAfter ∧
      At v (tlv 0x30#8 (tlv 0x06#8 (oidContent [1, 2, 840, 113549, 1, 1, 1]) ++ t.parameters) ++ tlv 0x03#8 (0x00#8 :: rsaKeyDer t.modulus t.exponent)) P ∧
      (rsaSpkiDer t.parameters t.modulus t.exponent).length < 2 ^ 64 ∧
      parseCertificate (certDer t algorithm signature) .Der = (do
        let k ← parsePublicKey v
        return if t.issuerUniqueID ≠ none ∨ t.subjectUniqueID ≠ none then {} else
          ⟨certDer t algorithm signature, x, [(nameFold {} t.subject).common_name], nameToString (nameFold {} t.subject), nameToString (nameFold {} t.issuer), t1, t2, k⟩) := by
  have L : (rsaSpkiDer t.parameters t.modulus t.exponent).length < 2 ^ 64 := by
    have L0 := le_tlv 0x30#8 (tbsDer t ++ (tlv 0x30#8 algorithm ++ tlv 0x03#8 (0x00#8 :: signature)))
    have L1 := le_tlv 0x30#8 (tbsContent t)
    rw [← certDer, List.length_append] at L0
    rw [← tbsDer, tbsContent] at L1
    simp only [List.length_append] at L1
    omega
  obtain ⟨x, t1, t2, h1, h2, h3, h4⟩ := parse_tbs_any t (tlv 0x30#8 (tlv 0x06#8 (oidContent [1, 2, 840, 113549, 1, 1, 1]) ++ t.parameters) ++ tlv 0x03#8 (0x00#8 :: rsaKeyDer t.modulus t.exponent))
    (tlv 0x30#8 algorithm ++ tlv 0x03#8 (0x00#8 :: signature)) [] hi hs hd1 hd2 hl
  rw [List.append_nil] at h4
  exact ⟨x, t1, t2, _, _, h1, h2, h3, at_view _ _, L, h4⟩

/-- All fields, for names of any kind. -/
theorem parse_cert (t : Tbs) (algorithm signature : List Byte) (hi : Encodable t.issuer) (hs : Encodable t.subject) (hd1 : GoodDate t.notBefore) (hd2 : GoodDate t.notAfter)
    (hk : GoodKey t.modulus t.exponent) (hl : (certDer t algorithm signature).length < 2 ^ 64) :
    if t.exponent < 17 then parseCertificate (certDer t algorithm signature) .Der = .error .thrown
    else if t.issuerUniqueID ≠ none ∨ t.subjectUniqueID ≠ none then parseCertificate (certDer t algorithm signature) .Der = .ok {}
    else ∃ c, parseCertificate (certDer t algorithm signature) .Der = .ok c ∧ c.derCert = certDer t algorithm signature ∧ value c.serialNumber = t.serial % 2 ^ 128 ∧
      nameString t.issuer = .ok c.issuer ∧ nameString t.subject = .ok c.subject ∧ (c.validity_start.toNat : Int) = unixTime t.notBefore ∧
      (c.validity_end.toNat : Int) = unixTime t.notAfter ∧
      (∃ k, c.pubkey = some k ∧ k.n.length = 128 ∧ k.e.length = 128 ∧ value k.n = t.modulus ∧ value k.e = t.exponent ∧ rsaPubNew 4096 k.n k.e = .ok k) ∧ c.fqdns = [(nameFold {} t.subject).common_name] := by
  obtain ⟨x, t1, t2, v, P, vx, ht1, ht2, hv, hlen, start⟩ := parse_cert_any t algorithm signature hi hs hd1 hd2 hl
  have hkey := parsePublicKey_spec hv hlen hk.1 hk.2.1 hk.2.2.1 hk.2.2.2
  split
  · next h17 =>
    rw [if_pos h17] at hkey
    rw [start, hkey, error_bind]
  · next h17 =>
    rw [if_neg h17] at hkey
    obtain ⟨k, ek, ln, le, kn, ke, kk⟩ := hkey
    rw [start, ek, ok_bind]
    split
    · next hu => rfl
    · next hu =>
      exact ⟨_, rfl, rfl, vx, nameString_eq _ hi, nameString_eq _ hs, ht1, ht2, ⟨k, rfl, ln, le, kn, ke, kk⟩, rfl⟩

theorem plain_commonName {n : DistinguishedName} (h : Plain n) : (nameFold {} n).common_name = commonName n := by
  have := plain_get h 12 (by decide)
  have e : nameGet (nameFold {} n) 12 = (nameFold {} n).common_name := rfl
  rw [e] at this
  rw [this, commonName]
  have hf : fieldOid 12 = oidContent [2, 5, 4, 3] := rfl
  rw [hf]
  cases hx : n.flatten.reverse.find? (fun a => decide (a.oid = oidContent [2, 5, 4, 3])) with
  | none => rfl
  | some a => exact (plain_mem h (List.mem_reverse.mp (List.mem_of_find?_eq_some hx))).2.1

/-- C80 without unique identifiers, for exponents of at least 17 and serial numbers below `2^128`. -/
theorem C80_partial (t : Tbs) (algorithm signature : List Byte) (h : Ordinary t) (hu : t.issuerUniqueID = none ∧ t.subjectUniqueID = none)
    (he : 17 ≤ t.exponent) (hser : t.serial < 2 ^ 128) (hl : (certDer t algorithm signature).length < 2 ^ 64) :
    ∃ c, parseCertificate (certDer t algorithm signature) .Der = .ok c ∧ Carries c t (certDer t algorithm signature) := by
  have := parse_cert t algorithm signature h.issuer.1 h.subject.1 h.start h.stop h.key hl
  rw [if_neg (by omega), if_neg (by simpa using hu)] at this
  obtain ⟨c, e, h1, h2, h3, h4, h5, h6, h7, h8⟩ := this
  refine ⟨c, e, h1, by rw [h2, Nat.mod_eq_of_lt hser], h3, h4, h5, h6, h7, fun fqdn => ?_⟩
  rw [Cert.appliesTo, h8, plain_commonName h.subject.2]
  simp

/-- C80: of longer serial numbers the low 128 bits are kept. -/
theorem C80_serial_partial (t : Tbs) (algorithm signature : List Byte) (h : Ordinary t) (hu : t.issuerUniqueID = none ∧ t.subjectUniqueID = none)
    (he : 17 ≤ t.exponent) (hl : (certDer t algorithm signature).length < 2 ^ 64) :
    ∃ c, parseCertificate (certDer t algorithm signature) .Der = .ok c ∧ value c.serialNumber = t.serial % 2 ^ 128 := by
  have := parse_cert t algorithm signature h.issuer.1 h.subject.1 h.start h.stop h.key hl
  rw [if_neg (by omega), if_neg (by simpa using hu)] at this
  obtain ⟨c, e, _, h2, _⟩ := this
  exact ⟨c, e, h2⟩

/-- C80: every certificate with a key with a smaller exponent is refused by an exception. -/
theorem C80_exponent_partial (t : Tbs) (algorithm signature : List Byte) (h : Ordinary t)
    (he : t.exponent < 17) (hl : (certDer t algorithm signature).length < 2 ^ 64) :
    parseCertificate (certDer t algorithm signature) .Der = .error .thrown := by
  have := parse_cert t algorithm signature h.issuer.1 h.subject.1 h.start h.stop h.key hl
  rwa [if_pos he] at this

/-- C80: a certificate with a unique identifier gives a blank object. -/
theorem C80_uniqueID_partial (t : Tbs) (algorithm signature : List Byte) (h : Ordinary t) (he : 17 ≤ t.exponent)
    (hu : t.issuerUniqueID ≠ none ∨ t.subjectUniqueID ≠ none) (hl : (certDer t algorithm signature).length < 2 ^ 64) :
    parseCertificate (certDer t algorithm signature) .Der = .ok {} := by
  have := parse_cert t algorithm signature h.issuer.1 h.subject.1 h.start h.stop h.key hl
  rwa [if_neg (by omega), if_pos hu] at this

/-- A certificate with the names of the example for C73. -/
def demoTbs (serial exponent : Nat) (id : Option (List Byte)) : Tbs where
  serial := serial
  algorithm := tlv 0x06#8 (oidContent [1, 2, 840, 113549, 1, 1, 11]) ++ tlv 0x05#8 []
  issuer := demoName
  notBefore := ⟨2024, 2, 29, 12, 0, 0⟩
  notAfter := ⟨2050, 12, 31, 23, 59, 59⟩
  subject := demoName
  parameters := tlv 0x05#8 []
  modulus := (2 ^ 127 - 1) * (2 ^ 521 - 1)
  exponent := exponent
  issuerUniqueID := id
  subjectUniqueID := none
  extensions := [⟨basicConstraints, true, tlv 0x30#8 (tlv 0x01#8 [0xff#8])⟩]

theorem demoName_plain : Encodable demoName ∧ Plain demoName := by
  refine ⟨⟨by decide +kernel, by decide +kernel⟩, ⟨?_, by decide +kernel⟩⟩
  intro r hr
  simp only [demoName, List.mem_cons, List.not_mem_nil, or_false] at hr
  rcases hr with rfl | rfl | rfl
  · exact ⟨⟨[0x55#8, 0x04#8, 0x06#8], 19#8, ascii "US"⟩, rfl, by decide +kernel, by decide, by decide +kernel, by decide +kernel⟩
  · exact ⟨⟨[0x55#8, 0x04#8, 0x0a#8], 12#8, ascii "Example"⟩, rfl, by decide +kernel, by decide, by decide +kernel, by decide +kernel⟩
  · exact ⟨⟨[0x55#8, 0x04#8, 0x03#8], 19#8, ascii "a b"⟩, rfl, by decide +kernel, by decide, by decide +kernel, by decide +kernel⟩

theorem demoStart : GoodDate ⟨2024, 2, 29, 12, 0, 0⟩ :=
  ⟨⟨by decide, by decide, by decide, by decide, by decide, by decide, by decide, by decide⟩, by decide, Or.inl (by decide)⟩
theorem demoStop : GoodDate ⟨2050, 12, 31, 23, 59, 59⟩ :=
  ⟨⟨by decide, by decide, by decide, by decide, by decide, by decide, by decide, by decide⟩, by decide, Or.inl (by decide)⟩

theorem demoTbs_ordinary (serial exponent : Nat) (id : Option (List Byte)) (h1 : serial < 2 ^ 159) (h2 : exponent < 2 ^ 4096) : Ordinary (demoTbs serial exponent id) where
  serial := h1
  issuer := demoName_plain
  subject := demoName_plain
  start := demoStart
  stop := demoStop
  key := ⟨by change (2 ^ 127 - 1) * (2 ^ 521 - 1) < 2 ^ 4096; decide +kernel, h2, by change ((2 ^ 127 - 1) * (2 ^ 521 - 1)) % 2 = 1; decide +kernel,
    by change 1 < (2 ^ 127 - 1) * (2 ^ 521 - 1); decide +kernel⟩

/-- The hypotheses of the partial theorems hold for this certificate. -/
example : Ordinary (demoTbs 4711 65537 none) ∧ (certDer (demoTbs 4711 65537 none) [] (List.replicate 81 0#8)).length < 2 ^ 64 :=
  ⟨demoTbs_ordinary _ _ _ (by decide) (by decide +kernel), by decide +kernel⟩

/-- C80 fails: the serial numbers 1 and `2^128 + 1` (17 octets) are not told apart. -/
theorem C80_false_serial : ¬ C80_claim := by
  intro h
  have ho := demoTbs_ordinary (2 ^ 128 + 1) 65537 none (by decide) (by decide +kernel)
  have hl : (certDer (demoTbs (2 ^ 128 + 1) 65537 none) [] []).length < 2 ^ 64 := by decide +kernel
  obtain ⟨c, e, hc⟩ := h _ [] [] ho hl
  obtain ⟨c', e', hc'⟩ := C80_serial_partial _ [] [] ho ⟨rfl, rfl⟩ (by decide) hl
  rw [e] at e'
  injection e' with e'
  subst e'
  rw [hc.serial] at hc'
  exact absurd hc' (by decide +kernel)

/-- C80 fails: keys with public exponent 3 are refused, although RFC 8017 allows them. -/
theorem C80_false_exponent : ¬ C80_claim := by
  intro h
  have ho := demoTbs_ordinary 1 3 none (by decide) (by decide +kernel)
  have hl : (certDer (demoTbs 1 3 none) [] []).length < 2 ^ 64 := by decide +kernel
  obtain ⟨c, e, _⟩ := h _ [] [] ho hl
  rw [C80_exponent_partial _ [] [] ho (by decide) hl] at e
  exact nomatch e

/-- C80 fails: a unique identifier makes the certificate blank. -/
theorem C80_false_uniqueID : ¬ C80_claim := by
  intro h
  have ho := demoTbs_ordinary 1 65537 (some [0x00#8, 0x01#8]) (by decide) (by decide +kernel)
  have hl : (certDer (demoTbs 1 65537 (some [0x00#8, 0x01#8])) [] []).length < 2 ^ 64 := by decide +kernel
  obtain ⟨c, e, hc⟩ := h _ [] [] ho hl
  rw [C80_uniqueID_partial _ [] [] ho (by decide) (Or.inl (by simp [demoTbs])) hl] at e
  injection e with e
  subst e
  obtain ⟨k, hk, _⟩ := hc.key
  exact nomatch hk

end Verif.Props
