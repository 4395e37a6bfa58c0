import Verif.Proof.Verify
import Verif.Spec.Signature

/-! Property C74: `x509certificate::verify` (src/X509Certificate.cpp:358-399). -/

namespace Verif.Props
open Verif.Model Verif.Proof Verif.Spec

/-- A key as `parseDer<RsaPubkey>` makes it from an odd modulus. -/
structure KeyOk (k : RsaPub) : Prop where
  ln : k.n.length = 128
  le : k.e.length = 128
  odd : value k.n % 2 = 1
  big : 1 < value k.n
  made : rsaPubNew 4096 k.n k.e = .ok k

/-- The validity interval of `c` lies within that of `i`. -/
def Nested (c i : Cert) : Prop := i.validity_start ≤ c.validity_start ∧ c.validity_end ≤ i.validity_end

/-- C74, full claim. -/
def C74_claim : Prop := ∀ (c i : Cert) (k : RsaPub), i.pubkey = some k → KeyOk k → c.verify i = .ok true →
  Nested c i ∧ ∃ tbs oid sig h alg, certificateParts c.derCert = some (tbs, oid, sig) ∧ rsaSignatureAlgorithm h = some alg ∧ oid = oidContent alg ∧
    rsassaPkcs1Verify h (value k.n) (value k.e) tbs sig

/-- A DER encoded certificate: content of the TBSCertificate, content of the algorithm's object identifier, its parameters, the signature. -/
def simpleCert (tbs oid par sig : List Byte) : List Byte :=
  tlv 0x30#8 (tlv 0x30#8 tbs ++ (tlv 0x30#8 (tlv 0x06#8 oid ++ par) ++ tlv 0x03#8 (0x00#8 :: sig)))

theorem verify_nested_iff (c i : Cert) : c.verify i = if i.validity_start ≤ c.validity_start ∧ c.validity_end ≤ i.validity_end then verifySignature c.derCert i.pubkey else .ok false := by
  rw [Cert.verify]
  by_cases h1 : c.validity_start < i.validity_start
  · rw [if_pos h1, if_neg (fun h => absurd h.1 (BitVec.not_le.mpr h1))]
  · rw [if_neg h1]
    by_cases h2 : i.validity_end < c.validity_end
    · rw [if_pos h2, if_neg (fun h => absurd h.2 (BitVec.not_le.mpr h2))]
    · rw [if_neg h2, if_pos ⟨BitVec.not_lt.mp h1, BitVec.not_lt.mp h2⟩]

theorem validateSignature_scheme (k : RsaPub) (oid data sig : List Byte) : validateSignature k (schemeOf oid) data sig =
    if oid = oidContent [1, 2, 840, 113549, 1, 1, 11] then validatePkcs1 4096 k .sha2_256 data sig
    else if oid = oidContent [1, 2, 840, 113549, 1, 1, 12] then validatePkcs1 4096 k .sha2_384 data sig
    else if oid = oidContent [1, 2, 840, 113549, 1, 1, 13] then validatePkcs1 4096 k .sha2_512 data sig else .ok false := by
  rw [schemeOf_eq]
  split
  · rfl
  · split
    · rfl
    · split <;> rfl

theorem algorithms_distinct : oidContent [1, 2, 840, 113549, 1, 1, 11] ≠ oidContent [1, 2, 840, 113549, 1, 1, 12] ∧
    oidContent [1, 2, 840, 113549, 1, 1, 11] ≠ oidContent [1, 2, 840, 113549, 1, 1, 13] ∧
    oidContent [1, 2, 840, 113549, 1, 1, 12] ≠ oidContent [1, 2, 840, 113549, 1, 1, 13] := by decide +kernel

theorem known_cases {h : HashClass} {alg : List Nat} (ha : rsaSignatureAlgorithm h = some alg) :
    (h = .sha2_256 ∧ alg = [1, 2, 840, 113549, 1, 1, 11]) ∨ (h = .sha2_384 ∧ alg = [1, 2, 840, 113549, 1, 1, 12]) ∨
    (h = .sha2_512 ∧ alg = [1, 2, 840, 113549, 1, 1, 13]) := by
  unfold rsaSignatureAlgorithm at ha
  split at ha
  · injection ha with ha; exact .inl ⟨rfl, ha.symm⟩
  · injection ha with ha; exact .inr (.inl ⟨rfl, ha.symm⟩)
  · injection ha with ha; exact .inr (.inr ⟨rfl, ha.symm⟩)
  · exact nomatch ha

/-- With an algorithm that is known, the scheme is that of the hash. -/
theorem validateSignature_known (k : RsaPub) (h : HashClass) (alg : List Nat) (ha : rsaSignatureAlgorithm h = some alg) (data sig : List Byte) :
    validateSignature k (schemeOf (oidContent alg)) data sig = validatePkcs1 4096 k h data sig := by
  obtain ⟨d1, d2, d3⟩ := algorithms_distinct
  rw [validateSignature_scheme]
  rcases known_cases ha with ⟨rfl, rfl⟩ | ⟨rfl, rfl⟩ | ⟨rfl, rfl⟩
  · rw [if_pos rfl]
  · rw [if_neg (Ne.symm d1), if_pos rfl]
  · rw [if_neg (Ne.symm d2), if_neg (Ne.symm d3), if_pos rfl]

theorem validateSignature_unknown (k : RsaPub) (oid data sig : List Byte) (hu : ¬ ∃ h alg, rsaSignatureAlgorithm h = some alg ∧ oid = oidContent alg) :
    validateSignature k (schemeOf oid) data sig = .ok false := by
  rw [validateSignature_scheme, if_neg (fun e => hu ⟨.sha2_256, _, rfl, e⟩), if_neg (fun e => hu ⟨.sha2_384, _, rfl, e⟩), if_neg (fun e => hu ⟨.sha2_512, _, rfl, e⟩)]

theorem known_hash {h : HashClass} {alg : List Nat} (ha : rsaSignatureAlgorithm h = some alg) :
    (h ≠ .sha3_224 ∧ h ≠ .sha3_384 ∧ h ≠ .sha3_512) ∧ ∃ oid, hashOid h = some oid := by
  rcases known_cases ha with ⟨rfl, rfl⟩ | ⟨rfl, rfl⟩ | ⟨rfl, rfl⟩
  · exact ⟨by decide, _, rfl⟩
  · exact ⟨by decide, _, rfl⟩
  · exact ⟨by decide, _, rfl⟩

theorem digestInfo_length {h : HashClass} {alg : List Nat} (ha : rsaSignatureAlgorithm h = some alg) {oid : List Nat} (ho : hashOid h = some oid) (m : List Byte)
    (hm : m.length < 2 ^ 61) : (digestInfo oid (digest h m)).length = 19 + digestLength h := by
  have hl := digest_length h m hm
  rw [hashsize_eq] at hl
  have hs := asn1Id_digestInfo (known_hash ha).1 ho _ (by rw [hl, hashsize_eq])
  have := congrArg List.length hs
  rw [List.length_append, hl] at this
  rw [← this]
  rcases known_cases ha with ⟨rfl, rfl⟩ | ⟨rfl, rfl⟩ | ⟨rfl, rfl⟩ <;> rfl

theorem octet_bounds (n : Nat) (h1 : 1 < n) : 2 ^ (8 * (octetLength n - 1)) ≤ n ∧ n < 2 ^ (8 * octetLength n) ∧ octetLength n ≠ 0 := by
  have hv := (minBytes_spec n).1
  have hlt := beNat_lt (minBytes n)
  rw [hv] at hlt
  refine ⟨?_, hlt, ?_⟩
  · unfold octetLength
    cases h : minBytes n with
    | nil => simp; omega
    | cons b t =>
      have hb := minBytes_head n b t h
      rw [h, beNat_cons] at hv
      have hb' : 1 ≤ b.toNat := by
        rcases Nat.eq_zero_or_pos b.toNat with h0 | h0
        · exact absurd (BitVec.eq_of_toNat_eq (by simpa using h0)) hb
        · exact h0
      rw [List.length_cons, Nat.add_sub_cancel, ← hv]
      exact Nat.le_trans (Nat.le_mul_of_pos_left _ hb') (Nat.le_add_right _ _)
  · unfold octetLength
    intro h
    rw [List.length_eq_zero_iff.mp h] at hv
    simp [beNat, leNat] at hv
    omega

/-- The verification of a DER encoded certificate whose algorithm is known. -/
theorem verify_known (c i : Cert) (k : RsaPub) (tbs par sig : List Byte) (h : HashClass) (alg : List Nat) (hd : c.derCert = simpleCert tbs (oidContent alg) par sig)
    (hi : i.pubkey = some k) (hk : KeyOk k) (ha : rsaSignatureAlgorithm h = some alg) (hl : c.derCert.length < 2 ^ 24)
    (hs : sig.length = octetLength (value k.n)) (hlong : digestLength h + 30 ≤ sig.length) :
    ∃ b, c.verify i = .ok b ∧ (b = true ↔ Nested c i ∧ ∃ oid, hashOid h = some oid ∧
      emsaPkcs1 (digest h) oid (tlv 0x30#8 tbs) sig.length = some (i2osp (beNat sig ^ value k.e % value k.n) sig.length)) := by
  obtain ⟨hc, oid, ho⟩ := known_hash ha
  have L : (tlv 0x30#8 tbs).length < c.derCert.length := by
    rw [hd, simpleCert]
    refine lt_of_le_of_lt ?_ (le_tlv 0x30#8 _)
    simp
  have L1 := le_tlv 0x30#8 tbs
  have L2 : (tlv 0x03#8 (0x00#8 :: sig)).length < c.derCert.length := by
    rw [hd, simpleCert]
    refine lt_of_le_of_lt ?_ (le_tlv 0x30#8 _)
    simp; omega
  have L3 := le_tlv 0x03#8 (0x00#8 :: sig)
  rw [List.length_cons] at L3
  rw [verify_nested_iff]
  by_cases hn : Nested c i
  · obtain ⟨b1, b2, _⟩ := octet_bounds (value k.n) hk.big
    obtain ⟨b, hb, hbi⟩ := C34_partial 128 k.n k.e h oid tbs sig.reverse (by decide) hk.ln hk.le hk.odd hk.big ho hc (by omega)
      (by rw [List.length_reverse, hs]; exact b1) (by rw [List.length_reverse, hs]; exact b2) (by rw [List.length_reverse]; omega)
      (by rw [digestInfo_length ha ho _ (by omega), List.length_reverse]; omega)
    rw [List.length_reverse] at hbi
    have hb' : validatePkcs1 4096 k h tbs sig.reverse = .ok b := by
      rw [show 32 * 128 = 4096 from rfl, hk.made, ok_bind] at hb; exact hb
    refine ⟨b, ?_, ?_⟩
    · unfold Nested at hn
      rw [if_pos hn, hd, simpleCert, verifySignature_der _ _ _ _ _ _ _ (by rw [hd, simpleCert] at hl; omega), hi]
      dsimp only
      rw [validateSignature_known k h alg ha, hb']
    · rw [hbi]
      constructor
      · exact fun e => ⟨hn, oid, ho, e⟩
      · rintro ⟨_, oid', ho', e⟩
        obtain rfl : oid = oid' := Option.some.inj (ho.symm.trans ho')
        exact e
  · refine ⟨false, ?_, by simp [hn]⟩
    unfold Nested at hn
    rw [if_neg hn]

/-- C74 for DER encoded certificates below 16 MiB whose signature has as many octets as the issuer's modulus, at least 11 more than the encoded hash
needs, and represents a number below the modulus: `verify` returns true exactly if the intervals are nested, the algorithm is one of the three and
RFC 8017 accepts the signature of the octets of the TBSCertificate. -/
theorem C74_partial (c i : Cert) (k : RsaPub) (tbs oid par sig : List Byte) (hd : c.derCert = simpleCert tbs oid par sig) (hi : i.pubkey = some k)
    (hk : KeyOk k) (hl : c.derCert.length < 2 ^ 24) (hs : sig.length = octetLength (value k.n)) (hlt : beNat sig < value k.n)
    (hlong : ∀ h alg, rsaSignatureAlgorithm h = some alg → oid = oidContent alg → digestLength h + 30 ≤ sig.length) :
    ∃ b, c.verify i = .ok b ∧ (b = true ↔ Nested c i ∧ ∃ h alg, rsaSignatureAlgorithm h = some alg ∧ oid = oidContent alg ∧
      rsassaPkcs1Verify h (value k.n) (value k.e) (tlv 0x30#8 tbs) sig) := by
  by_cases hu : ∃ h alg, rsaSignatureAlgorithm h = some alg ∧ oid = oidContent alg
  · obtain ⟨h, alg, ha, rfl⟩ := hu
    obtain ⟨b, hb, hbi⟩ := verify_known c i k tbs par sig h alg hd hi hk ha hl hs (hlong h alg ha rfl)
    refine ⟨b, hb, ?_⟩
    rw [hbi]
    constructor
    · rintro ⟨hn, o, ho, e⟩
      exact ⟨hn, h, alg, ha, rfl, hs, hlt, o, ho, hs ▸ e⟩
    · rintro ⟨hn, h', alg', ha', e', _, _, o, ho, e⟩
      obtain ⟨d1, d2, d3⟩ := algorithms_distinct
      have : h' = h := by
        rcases known_cases ha with ⟨rfl, rfl⟩ | ⟨rfl, rfl⟩ | ⟨rfl, rfl⟩ <;> rcases known_cases ha' with ⟨rfl, rfl⟩ | ⟨rfl, rfl⟩ | ⟨rfl, rfl⟩
        · rfl
        · exact absurd e' d1
        · exact absurd e' d2
        · exact absurd e'.symm d1
        · rfl
        · exact absurd e' d3
        · exact absurd e'.symm d2
        · exact absurd e'.symm d3
        · rfl
      subst this
      exact ⟨hn, o, ho, hs ▸ e⟩
  · refine ⟨false, ?_, by simp; exact fun _ h alg ha e => absurd ⟨h, alg, ha, e⟩ hu⟩
    rw [verify_nested_iff]
    split
    · rw [hd, simpleCert, verifySignature_der _ _ _ _ _ _ _ (by rw [hd, simpleCert] at hl; omega), hi]
      dsimp only
      rw [validateSignature_unknown k oid _ _ hu]
    · rfl

theorem read_infix {v : View} {r : (Byte × Span) × View} (h : v.read = .ok r) : r.1.2.rest <:+ v.data.rest ∧ r.2.data = v.data := by
  rw [View.read] at h
  cases e1 : v.data.get v.offset with
  | error e => rw [e1] at h; exact nomatch h
  | ok id =>
    cases e2 : v.data.get (v.offset + 1) with
    | error e => rw [e1, ok_bind, e2] at h; exact nomatch h
    | ok l =>
      cases e3 : readLen v.data l (v.offset + 2) with
      | error e => rw [e1, ok_bind, e2, ok_bind, e3] at h; exact nomatch h
      | ok p =>
        rw [e1, ok_bind, e2, ok_bind, e3, ok_bind] at h
        split at h
        · exact nomatch h
        · injection h with h
          subst h
          exact ⟨List.drop_suffix _ _, rfl⟩

theorem bytes_infix {s : Span} {l : List Byte} (h : s.rest <:+ l) : s.bytes <:+: l :=
  (List.take_prefix _ _).isInfix.trans h.isInfix

theorem bind_ok {α β : Type} {x : Out α} {f : α → Out β} {b : β} (h : (x >>= f) = .ok b) : ∃ a, x = .ok a ∧ f a = .ok b := by
  cases x with
  | error e => exact nomatch h
  | ok a => exact ⟨a, rfl, h⟩

theorem verifySignature_true (der : List Byte) (pubkey : Option RsaPub) (h : verifySignature der pubkey = .ok true) :
    ∃ k oid content u sig, pubkey = some k ∧ oid <:+: der ∧ content <:+: der ∧ u :: sig <:+: der ∧ validateSignature k (schemeOf oid) content sig.reverse = .ok true := by
  rw [verifySignature] at h
  obtain ⟨root, h1, h⟩ := bind_ok h
  split at h
  · exact nomatch h
  obtain ⟨cert, h2, h⟩ := bind_ok h
  split at h
  · exact nomatch h
  obtain ⟨algo, h3, h⟩ := bind_ok h
  obtain ⟨sg, h4, h⟩ := bind_ok h
  split at h
  · exact nomatch h
  split at h
  · exact nomatch h
  obtain ⟨oid, h5, h⟩ := bind_ok h
  obtain ⟨signature, h6, h⟩ := bind_ok h
  cases hp : pubkey with
  | none => rw [hp] at h; exact nomatch h
  | some k =>
    rw [hp] at h
    obtain ⟨i1, _⟩ := read_infix h1
    obtain ⟨i2, j2⟩ := read_infix h2
    obtain ⟨i3, j3⟩ := read_infix h3
    obtain ⟨i4, j4⟩ := read_infix h4
    obtain ⟨i5, j5⟩ := read_infix h5
    rw [j2] at i3 
    rw [j3, j2] at i4
    simp only [viewOf, spanOf] at i1 i2 i3 i4 i5
    have is := bytes_infix (i4.trans i1)
    cases hs : sg.1.2.bytes with
    | nil => rw [hs] at h6; exact nomatch h6
    | cons u s =>
      rw [hs] at h6 is
      rw [← Except.ok.inj h6] at h
      exact ⟨k, _, _, u, s, rfl, bytes_infix ((i5.trans i3).trans i1), bytes_infix (i2.trans i1), is, h⟩

/-- The encoded message the code makes, for any length of signature. -/
noncomputable def codeEm (hid : List Nat) (h : HashClass) (data : List Byte) (k : Nat) : List Byte :=
  [0x00#8, 0x01#8] ++ List.replicate (k - digestLength h - 22) 0xFF#8 ++ [0x00#8] ++ digestInfo hid (digest h (tlv 0x30#8 data))

/-- What `validatePkcs1_5Signature` computes, for any length of signature. -/
theorem validate_exact (k : RsaPub) (hk : KeyOk k) (h : HashClass) (alg : List Nat) (ha : rsaSignatureAlgorithm h = some alg) (hid : List Nat)
    (ho : hashOid h = some hid) (data sig : List Byte) (hd : data.length < 2 ^ 24) (hs : sig.length < 2 ^ 63) :
    validatePkcs1 4096 k h data sig.reverse = if sig.length ≤ digestLength h + 19 then .error .diverges
      else .ok (decide (beNat (codeEm hid h data sig.length) % 2 ^ 4096 = canonN (value k.n) ((beNat sig % 2 ^ 4096) ^ value k.e))) := by
  have hc := (known_hash ha).1
  obtain ⟨k', ek, _, _, ok⟩ := rsaPubNew_spec 128 (by decide) k.n k.e hk.ln hk.le hk.odd hk.big
  have ekk : k' = k := Except.ok.inj (ek.symm.trans hk.made)
  subst ekk
  have hm : (tlv 0x30#8 data).length < 2 ^ 61 := by
    have := congrArg List.length (pkcs1Prefix_eq data hd)
    have h3 := pkcs1Prefix_length data.length
    rw [List.length_append] at this
    omega
  have hT := digestInfo_length ha ho (tlv 0x30#8 data) hm
  have hl := digest_length h (tlv 0x30#8 data) hm
  have hA := asn1Id_digestInfo hc ho _ hl
  have hAl := congrArg List.length hA
  rw [List.length_append, hT, hl, hashsize_eq] at hAl
  rw [validatePkcs1, List.length_reverse, pkcs1_spec h data sig.length hd hs, hA, hashsize_eq, show (asn1Id h).length + digestLength h = digestLength h + 19 by omega]
  split
  · rfl
  · obtain ⟨r, er, lr, vr⟩ := rsaep_spec ok (bnOfBytes (32 * 128) sig.reverse) (bnOfBytes_spec _ _).1
    rw [ok_bind, show 4096 = 32 * 128 from rfl, er, ok_bind, codeEm, show sig.length - (digestLength h + 19) - 3 = sig.length - digestLength h - 22 by omega]
    generalize [0x00#8, 0x01#8] ++ List.replicate (sig.length - digestLength h - 22) 0xFF#8 ++ [0x00#8] ++ digestInfo hid (digest h (tlv 0x30#8 data)) = EM
    have hb := (C19_compare (bnOfBytes (32 * 128) EM.reverse) r ((bnOfBytes_spec _ _).1.trans ((bnN_mul32 128).trans lr.symm))).1
    rw [vr, (bnOfBytes_spec _ _).2, (bnOfBytes_spec _ _).2, bnN_mul32, leNat_take, leNat_take] at hb
    refine congrArg Except.ok ?_
    rw [Bool.eq_iff_iff, hb, decide_eq_true_iff]
    rfl

/-- What it means that the result is true. -/
theorem validate_true (k : RsaPub) (hk : KeyOk k) (h : HashClass) (alg : List Nat) (ha : rsaSignatureAlgorithm h = some alg) (data sig : List Byte)
    (hd : data.length < 2 ^ 24) (hs : sig.length < 2 ^ 63) (hv : validatePkcs1 4096 k h data sig.reverse = .ok true) :
    ∃ oid, hashOid h = some oid ∧ digestLength h + 19 < sig.length ∧
      (beNat sig % 2 ^ 4096) ^ value k.e ≡ beNat ([0x00#8, 0x01#8] ++ List.replicate (sig.length - digestLength h - 22) 0xFF#8 ++ [0x00#8] ++ digestInfo oid (digest h (tlv 0x30#8 data))) % 2 ^ 4096 [MOD value k.n] := by
  obtain ⟨_, oid, ho⟩ := known_hash ha
  rw [validate_exact k hk h alg ha oid ho data sig hd hs] at hv
  split at hv
  · exact nomatch hv
  · next hlen =>
    have hv' := decide_eq_true_iff.mp (Except.ok.inj hv)
    refine ⟨oid, ho, by omega, ?_⟩
    have := canonN_mod (value k.n) ((beNat sig % 2 ^ 4096) ^ value k.e)
    rw [← hv'] at this
    exact this.symm

/-- C74 for any bytes as certificate, below 16 MiB: if `verify` returns true, the intervals are nested, the issuer has a key, the bytes contain the
identifier of one of the three algorithms, a signature and a content such that the signature, to the power of the exponent and modulo the
modulus, is the encoded message of RFC 8017 for the SEQUENCE with that content. Not covered: that the parts are the ones at the places the
certificate's structure says, that the header of the TBSCertificate is the DER one, that the signature has the length of the modulus and is
below it. -/
theorem C74_any_partial (c i : Cert) (hl : c.derCert.length < 2 ^ 24) (hv : c.verify i = .ok true) :
    Nested c i ∧ ∃ k, i.pubkey = some k ∧ (KeyOk k → ∃ h alg hid content u sig, rsaSignatureAlgorithm h = some alg ∧ hashOid h = some hid ∧
      oidContent alg <:+: c.derCert ∧ content <:+: c.derCert ∧ u :: sig <:+: c.derCert ∧ digestLength h + 19 < sig.length ∧
      (beNat sig % 2 ^ 4096) ^ value k.e ≡ beNat ([0x00#8, 0x01#8] ++ List.replicate (sig.length - digestLength h - 22) 0xFF#8 ++ [0x00#8] ++
        digestInfo hid (digest h (tlv 0x30#8 content))) % 2 ^ 4096 [MOD value k.n]) := by
  rw [verify_nested_iff] at hv
  split at hv
  · next hn =>
    refine ⟨hn, ?_⟩
    obtain ⟨k, oid, content, u, sig, hp, i1, i2, i3, hs⟩ := verifySignature_true _ _ hv
    refine ⟨k, hp, fun hk => ?_⟩
    have l2 := i2.length_le
    have l3 := i3.length_le
    rw [List.length_cons] at l3
    by_cases hu : ∃ h alg, rsaSignatureAlgorithm h = some alg ∧ oid = oidContent alg
    · obtain ⟨h, alg, ha, rfl⟩ := hu
      rw [validateSignature_known k h alg ha] at hs
      obtain ⟨hid, ho, hlen, he⟩ := validate_true k hk h alg ha content sig (by omega) (by omega) hs
      exact ⟨h, alg, hid, content, u, sig, ha, ho, i1, i2, i3, hlen, he⟩
    · rw [validateSignature_unknown k oid _ _ hu] at hs
      exact nomatch hs
  · exact nomatch hv

end Verif.Props
