import Verif.Proof.Extend
import Verif.Props.KeySizes

/-! Property C114: which bytes determine the fields of a verified certificate (`parseCertificate`, src/X509Certificate.cpp:251-336, and `verify`,
src/X509Certificate.cpp:358-399). -/

namespace Verif.Props
open Verif.Model Verif.Proof Verif.Spec

/-- A file: the TBSCertificate with content `tbs`, other bytes inside the outer SEQUENCE, and bytes behind it. -/
def fileOf (tbs X Y : List Byte) : List Byte := tlv 0x30#8 (tlv 0x30#8 tbs ++ X) ++ Y

/-- C114, full claim: if two files with the same TBSCertificate are both accepted by an issuer's key, they give the same fields. -/
def C114_claim : Prop := ∀ (tbs X Y X' Y' : List Byte) (c c' i : Cert), (fileOf tbs X Y).length < 2 ^ 24 → (fileOf tbs X' Y').length < 2 ^ 24 →
  parseCertificate (fileOf tbs X Y) .Der = .ok c → parseCertificate (fileOf tbs X' Y') .Der = .ok c' →
  c.verify i = .ok true → c'.verify i = .ok true → SameFields c c'

theorem minBytes_mono {a b : Nat} (h : a ≤ b) : (minBytes a).length ≤ (minBytes b).length := by
  refine (minBytes_spec a).2 _ (Nat.lt_of_le_of_lt h ?_)
  have := beNat_lt (minBytes b)
  rwa [(minBytes_spec b).1, pow_mul] at this

theorem hdrLen_mono {a b : Nat} (h : a ≤ b) : hdrLen a ≤ hdrLen b := by
  have := minBytes_mono h
  rw [hdrLen, hdrLen, derLength, derLength]
  split <;> split <;> simp <;> omega

theorem parse_file (tbs X Y : List Byte) (hl : (tlv 0x30#8 (tlv 0x30#8 tbs ++ X)).length < 2 ^ 64) :
    parseCertificate (fileOf tbs X Y) .Der = (do
      let v ← parseVersion (viewOf ⟨tbs ++ (X ++ Y), tbs.length⟩)
      match v with
      | none => return {}
      | some cdata => parseFields cdata (fileOf tbs X Y)) := by
  have L0 := le_tlv 0x30#8 (tlv 0x30#8 tbs ++ X)
  have L1 := le_tlv 0x30#8 tbs
  rw [List.length_append] at L0
  have A0 : At (viewOf (spanOf (fileOf tbs X Y))) (tlv 0x30#8 (tlv 0x30#8 tbs ++ X) ++ Y) [] := at_whole _
  obtain ⟨w0, e0, _⟩ := read_tlv A0 (by rw [List.length_append]; omega)
  rw [List.append_nil] at e0
  obtain ⟨w1, e1, _⟩ := read_tlv (at_view (tlv 0x30#8 tbs ++ X) Y) (by omega)
  rw [parseCertificate, parseCertDer, e0, ok_bind, if_neg (by simp), e1, ok_bind, if_neg (by simp)]
  rfl

/-- C114 for every TBSCertificate that can be parsed on its own, with nothing behind it: whatever follows, the fields are the same. -/
theorem C114_partial (tbs X Y : List Byte) (c : Cert) (hl : (fileOf tbs X Y).length < 2 ^ 64) (h : parseCertificate (fileOf tbs [] []) .Der = .ok c) :
    ∃ c', parseCertificate (fileOf tbs X Y) .Der = .ok c' ∧ SameFields c c' ∧
      (c.derCert = fileOf tbs [] [] ∧ c'.derCert = fileOf tbs X Y ∨ c.derCert = [] ∧ c'.derCert = []) := by
  have l1 : (tlv 0x30#8 (tlv 0x30#8 tbs ++ X)).length ≤ (fileOf tbs X Y).length := by rw [fileOf]; simp
  have L0 := le_tlv 0x30#8 (tlv 0x30#8 tbs ++ X)
  have l0 : (tlv 0x30#8 (tlv 0x30#8 tbs ++ [])).length < 2 ^ 64 := by
    refine lt_of_le_of_lt ?_ (Nat.lt_of_le_of_lt l1 hl)
    rw [List.append_nil, tlv_length 0x30#8 (tlv 0x30#8 tbs), tlv_length 0x30#8 (tlv 0x30#8 tbs ++ X), List.length_append]
    have := hdrLen_mono (show (tlv 0x30#8 tbs).length ≤ (tlv 0x30#8 tbs).length + X.length by omega)
    omega
  rw [parse_file _ _ _ l0] at h
  rw [parse_file _ _ _ (Nat.lt_of_le_of_lt l1 hl)]
  obtain ⟨v, h1, h⟩ := bind_ok h
  have x1 := parseVersion_ext (p := X ++ Y) h1
  rw [view_ext, sExt] at x1
  simp only [List.append_nil] at x1
  rw [x1, ok_bind]
  cases v with
  | none =>
    rw [pure_ok h]
    exact ⟨_, rfl, SameFields.refl _, .inr ⟨rfl, rfl⟩⟩
  | some cdata => exact parseFields_ext h

/-- C114 for DER encoded TBSCertificates (C80): the fields are those of the TBSCertificate, whatever follows inside the outer SEQUENCE and behind it. -/
theorem C114_der_partial (t : Tbs) (X Y : List Byte) (h : Ordinary t) (hu : t.issuerUniqueID = none ∧ t.subjectUniqueID = none) (he : 17 ≤ t.exponent)
    (hser : t.serial < 2 ^ 128) (hl : (tlv 0x30#8 (tbsDer t ++ X)).length < 2 ^ 64) :
    ∃ c, parseCertificate (fileOf (tbsContent t) X Y) .Der = .ok c ∧ Carries c t (fileOf (tbsContent t) X Y) := by
  obtain ⟨x, t1, t2, h1, h2, h3, h4⟩ := parse_tbs_any t (tlv 0x30#8 (tlv 0x06#8 (oidContent [1, 2, 840, 113549, 1, 1, 1]) ++ t.parameters) ++
    tlv 0x03#8 (0x00#8 :: rsaKeyDer t.modulus t.exponent)) X Y h.issuer.1 h.subject.1 h.start h.stop hl
  have L : (rsaSpkiDer t.parameters t.modulus t.exponent).length < 2 ^ 64 := by
    have L0 := le_tlv 0x30#8 (tbsDer t ++ X)
    have L1 := le_tlv 0x30#8 (tbsContent t)
    rw [List.length_append] at L0
    rw [← tbsDer, tbsContent] at L1
    simp only [List.length_append] at L1
    omega
  have hkey := parsePublicKey_spec (at_view _ (tailDer t ++ (X ++ Y))) L h.key.1 h.key.2.1 h.key.2.2.1 h.key.2.2.2
  rw [if_neg (by omega)] at hkey
  obtain ⟨k, ek, ln, le, kn, ke, kk⟩ := hkey
  rw [ek, ok_bind, if_neg (by simpa using hu)] at h4
  refine ⟨_, h4, rfl, by rw [h1, Nat.mod_eq_of_lt hser], nameString_eq _ h.issuer.1, nameString_eq _ h.subject.1, h2, h3, ⟨k, rfl, ln, le, kn, ke, kk⟩, fun fqdn => ?_⟩
  rw [Cert.appliesTo, plain_commonName h.subject.2]
  simp

/-! ### A TBSCertificate that leaves its key open -/

theorem berHeader_head (tag : Byte) (n : Nat) (post : List Byte) (hn : n < 2 ^ 64) : berHeader (tag :: (derLength n ++ post)) = some (tag, n, hdrLen n) := by
  rw [hdrLen, derLength]
  by_cases h : n < 128
  · rw [if_pos h]
    have : (BitVec.ofNat 8 n).toNat = n := by rw [BitVec.toNat_ofNat]; exact Nat.mod_eq_of_lt (by omega)
    simp only [List.cons_append, List.nil_append, berHeader, this, if_pos h]; rfl
  · rw [if_neg h]
    obtain ⟨a, b⟩ := minBytes_spec n
    have hk := b 8 (by rw [show (256 : Nat) ^ 8 = 2 ^ 64 by norm_num]; exact hn)
    have : (BitVec.ofNat 8 (128 + (minBytes n).length)).toNat = 128 + (minBytes n).length := by
      rw [BitVec.toNat_ofNat]; exact Nat.mod_eq_of_lt (by omega)
    simp only [List.cons_append, berHeader, this, Nat.add_sub_cancel_left, List.length_append, List.length_cons]
    rw [if_neg (by omega), if_neg (by omega), List.take_left, a]
    congr 3; omega

/-- The beginning of the BIT STRING with an RSA key, up to the content octets of the modulus: `x` is their number and `y` the length of the
encoded exponent. -/
def openKey (x y : Nat) : List Byte :=
  let l := 1 + (derLength x).length + x + y
  0x03#8 :: (derLength (1 + (1 + (derLength l).length + l)) ++ 0x00#8 :: 0x30#8 :: (derLength l ++ 0x02#8 :: derLength x))

theorem openKey_close (n e : Nat) : openKey (integerContent n).length (integerDer e).length ++ (integerContent n ++ integerDer e) = tlv 0x03#8 (0x00#8 :: rsaKeyDer n e) := by
  have l : (integerDer n ++ integerDer e).length = 1 + (derLength (integerContent n).length).length + (integerContent n).length + (integerDer e).length := by
    rw [List.length_append, integerDer, integerDer, tlv_length, hdrLen]
  rw [openKey, ← l]
  have l2 : (0x00#8 :: rsaKeyDer n e).length = 1 + (1 + (derLength (integerDer n ++ integerDer e).length).length + (integerDer n ++ integerDer e).length) := by
    rw [List.length_cons, rsaKeyDer, tlv_length, hdrLen]; omega
  rw [tlv, l2, rsaKeyDer, tlv]
  generalize (integerDer n ++ integerDer e).length = L
  rw [show integerDer n = 0x02#8 :: (derLength (integerContent n).length ++ integerContent n) from rfl]
  simp only [List.append_assoc, List.cons_append]

theorem parsePublicKey_open {v : View} {par : List Byte} {n e : Nat} {P post : List Byte}
    (h : At v (tlv 0x30#8 (tlv 0x06#8 (oidContent [1, 2, 840, 113549, 1, 1, 1]) ++ par) ++ openKey (integerContent n).length (integerDer e).length) P)
    (hP : P = integerContent n ++ integerDer e ++ post) (hl : (rsaSpkiDer par n e).length < 2 ^ 64) (h17 : 17 ≤ e % 2 ^ 4096) (h0 : n % 2 ^ 4096 ≠ 0) :
    ∃ k, parsePublicKey v = .ok (some k) ∧ KeyIs k (n % 2 ^ 4096) (e % 2 ^ 4096) := by
  have l1 := le_tlv 0x30#8 (tlv 0x30#8 (tlv 0x06#8 (oidContent [1, 2, 840, 113549, 1, 1, 1]) ++ par) ++ tlv 0x03#8 (0x00#8 :: rsaKeyDer n e))
  rw [← rsaSpkiDer, List.length_append] at l1
  have l2 := le_tlv 0x30#8 (tlv 0x06#8 (oidContent [1, 2, 840, 113549, 1, 1, 1]) ++ par)
  have l3 := le_tlv 0x03#8 (0x00#8 :: rsaKeyDer n e)
  rw [List.length_cons] at l3
  obtain ⟨v1, e1, ha1⟩ := read_tlv h (by omega)
  have hin := at_view (tlv 0x06#8 (oidContent [1, 2, 840, 113549, 1, 1, 1]) ++ par) (openKey (integerContent n).length (integerDer e).length ++ P)
  obtain ⟨v2, e2, _⟩ := read_tlv hin (by decide +kernel)
  have hall : openKey (integerContent n).length (integerDer e).length ++ P = 0x03#8 :: (derLength (0x00#8 :: rsaKeyDer n e).length ++ ((0x00#8 :: rsaKeyDer n e) ++ post)) := by
    rw [hP, ← List.append_assoc, openKey_close, tlv, List.cons_append, List.append_assoc]
  have hhead : berHeader (openKey (integerContent n).length (integerDer e).length) = some (0x03#8, (0x00#8 :: rsaKeyDer n e).length, hdrLen (0x00#8 :: rsaKeyDer n e).length) := by
    have l2 : (0x00#8 :: rsaKeyDer n e).length = 1 + (1 + (derLength (integerDer n ++ integerDer e).length).length + (integerDer n ++ integerDer e).length) := by
      rw [List.length_cons, rsaKeyDer, tlv_length, hdrLen]; omega
    have l : (integerDer n ++ integerDer e).length = 1 + (derLength (integerContent n).length).length + (integerContent n).length + (integerDer e).length := by
      rw [List.length_append, integerDer, integerDer, tlv_length, hdrLen]
    rw [openKey, ← l, ← l2]
    exact berHeader_head _ _ _ (by rw [List.length_cons]; omega)
  have hlen : v1.offset + hdrLen (0x00#8 :: rsaKeyDer n e).length + (0x00#8 :: rsaKeyDer n e).length ≤ v1.data.rest.length := by
    have := congrArg List.length ha1.rest
    rw [hall, List.length_drop] at this
    simp only [List.length_cons, List.length_append] at this
    rw [hdrLen]
    simp only [List.length_cons]
    omega
  have hdrop : v1.data.rest.drop (v1.offset + hdrLen (0x00#8 :: rsaKeyDer n e).length) = (0x00#8 :: rsaKeyDer n e) ++ post := by
    rw [← List.drop_drop, ha1.rest, hall, hdrLen, Nat.add_comm, List.drop_succ_cons, List.drop_left]
  have e3 : v1.read = .ok ((0x03#8, ⟨(0x00#8 :: rsaKeyDer n e) ++ post, (0x00#8 :: rsaKeyDer n e).length⟩),
      ⟨v1.data, v1.offset + hdrLen (0x00#8 :: rsaKeyDer n e).length + (0x00#8 :: rsaKeyDer n e).length⟩) := by
    rw [read_exact v1 ha1.ok, ha1.bytes, hhead]
    have hmod : (0x00#8 :: rsaKeyDer n e).length % 2 ^ 64 = (0x00#8 :: rsaKeyDer n e).length := Nat.mod_eq_of_lt (by rw [List.length_cons]; omega)
    dsimp only
    rw [hmod, if_neg (by omega), hdrop]
  have hd : (Span.mk ((0x00#8 :: rsaKeyDer n e) ++ post) (0x00#8 :: rsaKeyDer n e).length).drop 1 = .ok ⟨rsaKeyDer n e ++ post, (rsaKeyDer n e).length⟩ := by
    rw [Span.drop, if_pos (by simp)]; rfl
  have hk := parseRsaPubkey_any (l := []) (by rw [List.append_nil]; exact at_view (rsaKeyDer n e) post) (by omega)
  rw [if_neg (Nat.not_lt.mpr h17), if_neg h0] at hk
  obtain ⟨k, v', ek, _, r⟩ := hk
  refine ⟨k, ?_, r⟩
  rw [parsePublicKey, e1, ok_bind, if_neg (by simp), e2, ok_bind, if_neg (by simp), if_neg (by rw [span_bytes, oidRsa_eq]; simp), e3, ok_bind]
  dsimp only
  rw [hd, ok_bind, ek]
  rfl

/-- A number whose first octet is neither 0 nor at least `0x80` is encoded by its octets. -/
theorem integerContent_beNat (b : Byte) (l : List Byte) (h1 : b ≠ 0x00#8) (h2 : ¬ 0x80#8 ≤ b) : integerContent (beNat (b :: l)) = b :: l := by
  have hb : 1 ≤ b.toNat := by
    rcases Nat.eq_zero_or_pos b.toNat with h0 | h0
    · exact absurd (BitVec.eq_of_toNat_eq (by simpa using h0)) h1
    · exact h0
  have e : minBytes (beNat (b :: l)) = b :: l := by
    obtain ⟨a, c⟩ := minBytes_spec (beNat (b :: l))
    refine beNat_inj ?_ a
    apply Nat.le_antisymm
    · refine c _ ?_
      have := beNat_lt (b :: l)
      rwa [pow_mul] at this
    · by_contra hlt
      have hlt : (minBytes (beNat (b :: l))).length ≤ l.length := by simp only [List.length_cons] at hlt; omega
      have h3 := beNat_lt (minBytes (beNat (b :: l)))
      rw [a] at h3
      have h6 := beNat_cons b l
      have h4 : 2 ^ (8 * (minBytes (beNat (b :: l))).length) ≤ 2 ^ (8 * l.length) := Nat.pow_le_pow_right (by decide) (by omega)
      have h5 := Nat.le_mul_of_pos_left (2 ^ (8 * l.length)) hb
      omega
  rw [integerContent, e]
  simp only [if_neg h2]

/-- `verify` on a DER encoded certificate with bytes behind it. -/
theorem verifySignature_file (tbs oid par sig Y : List Byte) (pubkey : Option RsaPub)
    (hl : (simpleCert tbs oid par sig).length < 2 ^ 64) :
    verifySignature (simpleCert tbs oid par sig ++ Y) pubkey = verifySignature (simpleCert tbs oid par sig) pubkey := by
  rw [simpleCert] at hl ⊢
  rw [verifySignature_der tbs oid par sig 0x06#8 0x00#8 pubkey hl]
  have L0 := le_tlv 0x30#8 (tlv 0x30#8 tbs ++ (tlv 0x30#8 (tlv 0x06#8 oid ++ par) ++ tlv 0x03#8 (0x00#8 :: sig)))
  simp only [List.length_append] at L0
  have L1 := le_tlv 0x30#8 tbs
  have L2 := le_tlv 0x30#8 (tlv 0x06#8 oid ++ par)
  have L3 := le_tlv 0x03#8 (0x00#8 :: sig)
  have L4 := le_tlv 0x06#8 oid
  have L5 : (tlv 0x06#8 oid ++ par).length = (tlv 0x06#8 oid).length + par.length := List.length_append
  have A0 : At (viewOf (spanOf (tlv 0x30#8 (tlv 0x30#8 tbs ++ (tlv 0x30#8 (tlv 0x06#8 oid ++ par) ++ tlv 0x03#8 (0x00#8 :: sig))) ++ Y)))
      (tlv 0x30#8 (tlv 0x30#8 tbs ++ (tlv 0x30#8 (tlv 0x06#8 oid ++ par) ++ tlv 0x03#8 (0x00#8 :: sig))) ++ Y) [] := at_whole _
  obtain ⟨w0, e0, _⟩ := read_tlv A0 (by simp only [List.length_append]; omega)
  obtain ⟨w1, e1, A1⟩ := read_tlv (at_view (tlv 0x30#8 tbs ++ (tlv 0x30#8 (tlv 0x06#8 oid ++ par) ++ tlv 0x03#8 (0x00#8 :: sig))) (Y ++ [])) (by omega)
  obtain ⟨w2, e2, A2⟩ := read_tlv A1 (by omega)
  have A2' : At w2 (tlv 0x03#8 (0x00#8 :: sig) ++ []) (Y ++ []) := by rw [List.append_nil]; exact A2
  obtain ⟨w3, e3, _⟩ := read_tlv A2' (by omega)
  obtain ⟨w4, e4, _⟩ := read_tlv (at_view (tlv 0x06#8 oid ++ par) (tlv 0x03#8 (0x00#8 :: sig) ++ (Y ++ []))) (by omega)
  rw [verifySignature, e0, ok_bind, if_neg (by simp), e1, ok_bind, if_neg (by simp), e2, ok_bind, e3, ok_bind, if_neg (by simp), if_neg (by simp), e4, ok_bind]
  dsimp only
  rw [span_bytes, span_bytes, span_bytes, signatureBytes, ok_bind]
  cases pubkey <;> rfl

/-- A TBSCertificate whose key is left open: its BIT STRING claims `x` octets for the modulus that lie behind the TBSCertificate. -/
def openTbs (t : Tbs) (x e : Nat) : List Byte :=
  tbsWith t (tlv 0x30#8 (tlv 0x06#8 (oidContent [1, 2, 840, 113549, 1, 1, 1]) ++ t.parameters) ++ openKey x (integerDer e).length)

/-- Algorithm identifier and signature. -/
def signaturePart (oid par sig : List Byte) : List Byte := tlv 0x30#8 (tlv 0x06#8 oid ++ par) ++ tlv 0x03#8 (0x00#8 :: sig)

/-- What is appended to the certificate to give it the key `n`, `e`. -/
def keyPart (n e : Nat) : List Byte := i2osp n 512 ++ integerDer e

/-- C114 fails in the worst way: there are TBSCertificates, with any names, dates and serial number, such that whoever has one signature of the
issuer can append any modulus to the certificate, and it is the key of the certificate. `verify` gives what it gave without the appended bytes. -/
theorem C114_forge_partial (t : Tbs) (oid par sig : List Byte) (n e : Nat) (hi : Encodable t.issuer) (hs : Encodable t.subject) (hd1 : GoodDate t.notBefore) (hd2 : GoodDate t.notAfter)
    (hu : t.issuerUniqueID = none ∧ t.subjectUniqueID = none) (hx : t.extensions = []) (h17 : 17 ≤ e) (he : e < 2 ^ 4096) (h0 : 0 < n) (hn : n < 2 ^ 4096)
    (hl : (fileOf (openTbs t ((signaturePart oid par sig).length + 512) e) (signaturePart oid par sig) (keyPart n e)).length < 2 ^ 24) :
    ∃ c k, parseCertificate (fileOf (openTbs t ((signaturePart oid par sig).length + 512) e) (signaturePart oid par sig) (keyPart n e)) .Der = .ok c ∧
      c.pubkey = some k ∧ KeyIs k n e ∧ nameString t.subject = .ok c.subject ∧ nameString t.issuer = .ok c.issuer ∧
      (c.validity_start.toNat : Int) = unixTime t.notBefore ∧ (c.validity_end.toNat : Int) = unixTime t.notAfter ∧
      ∀ i, c.verify i = Cert.verify { c with derCert := simpleCert (openTbs t ((signaturePart oid par sig).length + 512) e) oid par sig } i := by
  generalize hX : signaturePart oid par sig = X at hl
  have hX' := hX
  rw [signaturePart, tlv, List.cons_append] at hX'
  generalize hM : X ++ i2osp n 512 = M
  have hMl : M.length = X.length + 512 := by rw [← hM, List.length_append, i2osp_length]
  have hMN : integerContent (beNat M) = M := by
    rw [← hM, ← hX', List.cons_append]
    exact integerContent_beNat _ _ (by decide) (by decide)
  have hmod : beNat M % 2 ^ 4096 = n := by
    rw [← hM, beNat_append, i2osp_length, beNat_i2osp, show 8 * 512 = 4096 from rfl, Nat.mod_eq_of_lt hn, Nat.mul_add_mod_of_lt hn]
  have htail : tailDer t = [] := by rw [tailDer, hu.1, hu.2, hx]; rfl
  rw [openTbs] at hl ⊢
  generalize hsp : tlv 0x30#8 (tlv 0x06#8 (oidContent [1, 2, 840, 113549, 1, 1, 1]) ++ t.parameters) ++ openKey (X.length + 512) (integerDer e).length = spki at hl
  obtain ⟨x, t1, t2, h1, h2, h3, h4⟩ := parse_tbs_any t spki X (keyPart n e) hi hs hd1 hd2 (by
    rw [fileOf, List.length_append] at hl
    omega)
  have hP : tailDer t ++ (X ++ keyPart n e) = integerContent (beNat M) ++ integerDer e ++ [] := by
    rw [htail, hMN, keyPart, ← hM]; simp
  have hAt := at_view spki (tailDer t ++ (X ++ keyPart n e))
  have hL : (rsaSpkiDer t.parameters (beNat M) e).length < 2 ^ 64 := by
    have a1 : (tlv 0x30#8 (tlv 0x06#8 (oidContent [1, 2, 840, 113549, 1, 1, 1]) ++ t.parameters) ++ tlv 0x03#8 (0x00#8 :: rsaKeyDer (beNat M) e)).length =
        spki.length + (X.length + (keyPart n e).length) := by
      rw [← openKey_close, hMN, hMl, ← List.append_assoc, hsp, ← hM, keyPart]
      simp only [List.length_append]
      omega
    have a2 : spki.length + (X.length + (keyPart n e).length) < 2 ^ 24 := by
      have b1 := le_tlv 0x30#8 spki
      have b2 := le_tlv 0x30#8 (tbsWith t spki)
      have b3 := le_tlv 0x30#8 (tlv 0x30#8 (tbsWith t spki) ++ X)
      rw [fileOf, List.length_append] at hl
      rw [List.length_append] at b3
      have b4 : (tlv 0x30#8 spki).length ≤ (tbsWith t spki).length := by
        rw [tbsWith]; simp only [List.length_append]; omega
      omega
    rw [rsaSpkiDer, tlv_length, a1]
    have a3 := hdrLen_mono (Nat.le_of_lt a2)
    have a4 : hdrLen (2 ^ 24) = 6 := by decide +kernel
    omega
  obtain ⟨k, ek, hk⟩ := parsePublicKey_open (n := beNat M) (e := e) (par := t.parameters) (post := []) (by rw [hMN, hMl, hsp]; exact hAt) hP hL (by rw [Nat.mod_eq_of_lt he]; exact h17) (by omega)
  rw [hmod, Nat.mod_eq_of_lt he] at hk
  rw [ek, ok_bind, if_neg (by simpa using hu)] at h4
  refine ⟨_, k, h4, rfl, hk, nameString_eq _ hs, nameString_eq _ hi, h2, h3, fun i => ?_⟩
  rw [verify_nested_iff, verify_nested_iff]
  dsimp only
  have hfile : tlv 0x30#8 (tlv 0x30#8 (tbsWith t spki) ++ X) = simpleCert (tbsWith t spki) oid par sig := by
    rw [simpleCert, ← hX, signaturePart]
  rw [hfile, verifySignature_file _ _ _ _ _ _ (by rw [← hfile]; rw [fileOf, List.length_append] at hl; omega)]

/-- The private exponent for the prime `2^521 - 1` and the exponent 65537. -/
def demoExponent : Nat := 5155328233496318390256865764810548697290840245466729669258087920880340553538954146776874404297340568416582885358721232128614872261196790492751513654940106623

/-- A certificate without extensions. -/
def openDemo : Tbs := { demoTbs 1 65537 none with extensions := [] }

/-- Two files with the same TBSCertificate, algorithm and signature that are both accepted and have different keys. -/
theorem accepted_files : ∃ (i : Cert) (tbs X : List Byte), ∀ n, n = 3 ∨ n = 5 → (fileOf tbs X (keyPart n 65537)).length < 2 ^ 24 ∧
    ∃ c k, parseCertificate (fileOf tbs X (keyPart n 65537)) .Der = .ok c ∧ c.pubkey = some k ∧ value k.n = n ∧ c.verify i = .ok true := by
  have hr := bigTbs_readable (2 ^ 521 - 1) [] [] (by decide +kernel)
  obtain ⟨i, ki, hi, -, -, s1, s2, -, -, -⟩ := (C113_partial _ [] [] hr).2.2 (by decide +kernel) (by decide +kernel)
  generalize htbs : openTbs openDemo 596 65537 = tbs
  have ltbs : (tlv 0x30#8 tbs).length < 2000 := by rw [← htbs]; decide +kernel
  have ltbs0 := le_tlv 0x30#8 tbs
  have hT : (digestInfo [2, 16, 840, 1, 101, 3, 4, 2, 1] (digest .sha2_256 (tlv 0x30#8 tbs))).length = 51 :=
    digestInfo_length (h := .sha2_256) (alg := [1, 2, 840, 113549, 1, 1, 11]) rfl rfl _ (by omega)
  have oq : octetLength (2 ^ 521 - 1) = 66 := by decide +kernel
  obtain ⟨em, hem⟩ : ∃ em, emsaPkcs1 (digest .sha2_256) [2, 16, 840, 1, 101, 3, 4, 2, 1] (tlv 0x30#8 tbs) (octetLength (2 ^ 521 - 1)) = some em := by
    rw [emsaPkcs1, hT, oq, if_neg (by decide)]
    exact ⟨_, rfl⟩
  generalize hsig : i2osp (beNat em ^ demoExponent % (2 ^ 521 - 1)) (octetLength (2 ^ 521 - 1)) = sig
  have lsig : sig.length = 66 := by rw [← hsig, i2osp_length, oq]
  have hsd : (tlv 0x03#8 (0x00#8 :: sig)).length = 69 := by
    rw [tlv_length, List.length_cons, lsig]; decide +kernel
  have lX : (signaturePart (oidContent [1, 2, 840, 113549, 1, 1, 11]) (tlv 0x05#8 []) sig).length = 84 := by
    rw [signaturePart, List.length_append, hsd]; decide +kernel
  have lfile : ∀ Y : List Byte, Y.length < 1000 → (fileOf tbs (signaturePart (oidContent [1, 2, 840, 113549, 1, 1, 11]) (tlv 0x05#8 []) sig) Y).length < 2 ^ 24 := by
    intro Y hY
    have h6 : hdrLen 3000 = 4 := by decide +kernel
    have h7 : hdrLen ((tlv 0x30#8 tbs).length + 84) ≤ hdrLen 3000 := hdrLen_mono (by omega)
    rw [fileOf, List.length_append, tlv_length, List.length_append, lX]
    omega
  have htbs' : openTbs openDemo ((signaturePart (oidContent [1, 2, 840, 113549, 1, 1, 11]) (tlv 0x05#8 []) sig).length + 512) 65537 = tbs := by rw [lX, ← htbs]
  refine ⟨i, tbs, signaturePart (oidContent [1, 2, 840, 113549, 1, 1, 11]) (tlv 0x05#8 []) sig, ?_⟩
  intro n hn
  have b : n < 2 ^ 4096 := lt_of_lt_of_le (show n < 2 ^ 3 by omega) (Nat.pow_le_pow_right (by decide) (by decide))
  have lY : (keyPart n 65537).length < 1000 := by rw [keyPart, List.length_append, i2osp_length]; decide +kernel
  obtain ⟨c, k, h1, h2, h3, -, -, h4, h5, h6⟩ := C114_forge_partial openDemo (oidContent [1, 2, 840, 113549, 1, 1, 11]) (tlv 0x05#8 []) sig n 65537
    demoName_plain.1 demoName_plain.1 demoStart demoStop ⟨rfl, rfl⟩ rfl (by decide) (lt_of_lt_of_le (show 65537 < 2 ^ 17 by decide) (Nat.pow_le_pow_right (by decide) (by decide)))
    (by omega) b (by rw [htbs']; exact lfile _ lY)
  rw [htbs'] at h1 h6
  refine ⟨lfile _ lY, c, k, h1, h2, h3.n, ?_⟩
  rw [h6]
  have d1 : c.validity_start = i.validity_start := BitVec.eq_of_toNat_eq (Int.ofNat_inj.mp (h4.trans s1.symm))
  have d2 : c.validity_end = i.validity_end := BitVec.eq_of_toNat_eq (Int.ofNat_inj.mp (h5.trans s2.symm))
  refine C113_forge_partial _ [] [] hr (2 ^ 521 - 1) demoExponent (by decide +kernel) prime_521 (by decide +kernel) (by decide +kernel) (by decide +kernel) i hi _ .sha2_256
    [1, 2, 840, 113549, 1, 1, 11] [2, 16, 840, 1, 101, 3, 4, 2, 1] tbs (tlv 0x05#8 []) em rfl rfl hem (by decide +kernel) (by rw [hsig]) ?_ ?_
  · have := lfile [] (by decide)
    rw [fileOf, List.append_nil] at this
    exact this
  · exact ⟨by rw [d1]; exact BitVec.le_refl _, by rw [d2]; exact BitVec.le_refl _⟩

/-- C114 fails: two files with the same TBSCertificate, algorithm and signature are both accepted and have different keys. -/
theorem C114_false : ¬ C114_claim := by
  intro claim
  obtain ⟨i, tbs, X, both⟩ := accepted_files
  obtain ⟨l3, c, k, a1, a2, a3, a4⟩ := both 3 (.inl rfl)
  obtain ⟨l5, c', k', b1, b2, b3, b4⟩ := both 5 (.inr rfl)
  have same := claim _ _ _ _ _ c c' i l3 l5 a1 b1 a4 b4
  have := same.key
  rw [a2, b2] at this
  injection this with this
  rw [this, a3] at b3
  exact absurd b3 (by decide)

/-- The hypotheses of `C114_partial` and `C114_der_partial` hold for the demonstration certificate. -/
example : Ordinary (demoTbs 1 65537 none) ∧ 17 ≤ (demoTbs 1 65537 none).exponent ∧ (demoTbs 1 65537 none).serial < 2 ^ 128 ∧
    (tlv 0x30#8 (tbsDer (demoTbs 1 65537 none) ++ [1#8, 2#8])).length < 2 ^ 64 ∧
    ∃ c, parseCertificate (fileOf (tbsContent (demoTbs 1 65537 none)) [] []) .Der = .ok c ∧ c.derCert = fileOf (tbsContent (demoTbs 1 65537 none)) [] [] := by
  have h := demoTbs_ordinary 1 65537 none (by decide +kernel) (by decide +kernel)
  refine ⟨h, by decide, by decide +kernel, by decide +kernel, ?_⟩
  obtain ⟨c, hc, cc⟩ := C114_der_partial _ [] [] h ⟨rfl, rfl⟩ (by decide) (by decide +kernel) (by decide +kernel)
  exact ⟨c, hc, cc.der⟩

end Verif.Props
