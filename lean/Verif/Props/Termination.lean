import Verif.Proof.Termination
import Verif.Props.KeySizes
import Verif.Props.Pem

/-! Property C135: reading certificates and keys comes to an end. -/

namespace Verif.Props
open Verif.Model Verif.Proof Verif.Spec

/-- C135, full claim: whatever the bytes are, reading a certificate, a bundle of certificates or a private key comes to an end (with a result, an
exception or outside the language). -/
def C135_claim : Prop := ∀ (data : List Byte) (format : DataFormat), parseCertificate data format ≠ .error .diverges ∧
  parsePrivateKey data format ≠ .error .diverges ∧ parseCertificatesPem data ≠ .error .diverges

/-- Where the reader of the key is when it does not return. -/
theorem pubkey_stuck {v : View} (h : parseRsaPubkey v = .error .diverges) : ∃ n e : List U32 × View, ∃ r, v.read = .ok r ∧
    parseBignum 4096 (viewOf r.1.2) = .ok n ∧ parseBignum 4096 n.2 = .ok e ∧ value n.1 = 0 ∧ 17 ≤ value e.1 := by
  obtain ⟨r, hr, h⟩ := stuck_bind h (ends_read v)
  obtain ⟨n, hn, h⟩ := stuck_bind h (ends_parseBignum _ _)
  obtain ⟨e, he, h⟩ := stuck_bind h (ends_parseBignum _ _)
  split at h
  · exact nomatch h
  · next hlt =>
    have h17 := bnOfU32_spec 4096 (by decide) 17#32
    rw [(C19_compare e.1 (bnOfU32 4096 17#32) (by rw [parseBignum_width (by decide) he, h17.1])).2, h17.2] at hlt
    refine ⟨n, e, r, hr, hn, he, ?_, Nat.not_lt.mp hlt⟩
    by_contra h0
    have hl := parseBignum_width (by decide) hn
    have hm := montNew_stuck 128 (by decide) n.1 hl
    refine absurd h (ends_bind (ends_bind (fun hd => h0 (hm.mp hd)) (fun _ _ => ends_pure _)) (fun _ _ => ends_pure _))

/-- Where the reader of a certificate is when it does not return. -/
theorem cert_stuck {der : List Byte} (h : parseCertDer der = .error .diverges) : ∃ v : View, ∃ o : (Byte × Span) × View, v.read = .ok o ∧ v.data.rest <:+ der ∧
    o.1.2.bytes = oidRsaEncryption ∧ ∃ w : View, parseRsaPubkey w = .error .diverges := by
  obtain ⟨root, hroot, h⟩ := stuck_bind h (ends_read _)
  split at h
  · exact nomatch h
  obtain ⟨cert, hcert, h⟩ := stuck_bind h (ends_read _)
  split at h
  · exact nomatch h
  obtain ⟨ver, hver, h⟩ := stuck_bind h (ends_parseVersion _)
  cases ver with
  | none => exact nomatch h
  | some cdata =>
    have s1 : cert.1.2.rest <:+ der := (read_suffix hcert).1.trans (read_suffix hroot).1
    have s2 : cdata.data.rest <:+ der := by
      obtain ⟨id, -, hver⟩ := bind_inv hver
      split at hver
      · obtain ⟨r, hr, hver⟩ := bind_inv hver
        obtain ⟨i, -, hver⟩ := bind_inv hver
        split at hver
        · exact nomatch hver
        · split at hver
          · exact nomatch hver
          · cases hver
            rw [(read_suffix hr).2]
            exact s1
      · cases hver; exact s1
    change parseFields cdata der = _ at h
    obtain ⟨serial, hserial, h⟩ := stuck_bind h (ends_parseBignum _ _)
    have s3 : serial.2.data.rest = cdata.data.rest := by
      obtain ⟨r, hr, hserial⟩ := bind_inv hserial
      split at hserial
      · cases hserial; exact (read_suffix hr).2
      · cases hserial; exact (read_suffix hr).2
    obtain ⟨r3, h3, h⟩ := stuck_bind h (ends_read _)
    split at h
    · exact nomatch h
    obtain ⟨r4, h4, h⟩ := stuck_bind h (ends_read _)
    split at h
    · exact nomatch h
    obtain ⟨issuer, -, h⟩ := stuck_bind h (ends_parseName _)
    obtain ⟨r5, h5, h⟩ := stuck_bind h (ends_read _)
    split at h
    · exact nomatch h
    obtain ⟨start, -, h⟩ := stuck_bind h (ends_parseDate _)
    obtain ⟨stop, -, h⟩ := stuck_bind h (ends_parseDate _)
    obtain ⟨r6, h6, h⟩ := stuck_bind h (ends_read _)
    split at h
    · exact nomatch h
    obtain ⟨subject, -, h⟩ := stuck_bind h (ends_parseName _)
    obtain ⟨r7, h7, h⟩ := stuck_bind h (ends_read _)
    split at h
    · exact nomatch h
    have s4 : r7.1.2.rest <:+ der := by
      have := (read_suffix h7).1
      rw [(read_suffix h6).2, (read_suffix h5).2, (read_suffix h4).2, (read_suffix h3).2, s3] at this
      exact this.trans s2
    by_cases hk : parsePublicKey (viewOf r7.1.2) = .error .diverges
    · obtain ⟨q1, hq1, hk⟩ := stuck_bind hk (ends_read _)
      split at hk
      · exact nomatch hk
      obtain ⟨q2, hq2, hk⟩ := stuck_bind hk (ends_read _)
      split at hk
      · exact nomatch hk
      split at hk
      · exact nomatch hk
      next hoid =>
      obtain ⟨q3, hq3, hk⟩ := stuck_bind hk (ends_read _)
      obtain ⟨s22, -, hk⟩ := stuck_bind hk (ends_drop _ _)
      refine ⟨viewOf q1.1.2, q2, hq2, (read_suffix hq1).1.trans s4, Decidable.not_not.mp hoid, viewOf s22, ?_⟩
      by_contra hn
      exact ends_bind hn (fun _ _ => ends_pure _) hk
    · obtain ⟨key, -, h⟩ := stuck_bind h hk
      obtain ⟨ok, -, h⟩ := stuck_bind h (ends_tailLoop _ _ (Nat.succ_pos _) (Nat.le_add_right _ _))
      split at h
      · exact nomatch h
      · exact nomatch h

/-- C135: the only place where the reader of certificates can stay for ever is the construction of an RSA key whose modulus was read as 0. -/
theorem C135_certificate_partial (data : List Byte) (format : DataFormat) (h : parseCertificate data format = .error .diverges) :
    ∃ (v : View) (r : (Byte × Span) × View) (n e : List U32 × View), v.read = .ok r ∧ parseBignum 4096 (viewOf r.1.2) = .ok n ∧
      parseBignum 4096 n.2 = .ok e ∧ value n.1 = 0 ∧ 17 ≤ value e.1 := by
  have key : ∀ der, parseCertDer der = .error .diverges → ∃ (v : View) (r : (Byte × Span) × View) (n e : List U32 × View), v.read = .ok r ∧
      parseBignum 4096 (viewOf r.1.2) = .ok n ∧ parseBignum 4096 n.2 = .ok e ∧ value n.1 = 0 ∧ 17 ≤ value e.1 := by
    intro der h
    obtain ⟨-, -, -, -, -, w, hw⟩ := cert_stuck h
    obtain ⟨n, e, r, h1, h2, h3, h4, h5⟩ := pubkey_stuck hw
    exact ⟨w, r, n, e, h1, h2, h3, h4, h5⟩
  cases format with
  | Der => exact key _ h
  | Pem =>
    obtain ⟨der, -, h⟩ := stuck_bind h (ends_pemBody _ _ _)
    exact key _ h

/-- C135: a certificate in which the identifier of RSA encryption does not occur is read to the end. -/
theorem C135_oid_partial (der : List Byte) (h : ¬ [0x2a#8, 0x86#8, 0x48#8, 0x86#8, 0xf7#8, 0x0d#8, 0x01#8, 0x01#8, 0x01#8] <:+: der) :
    parseCertificate der .Der ≠ .error .diverges := by
  intro hd
  obtain ⟨v, o, ho, hs, hb, -⟩ := cert_stuck hd
  apply h
  have hsuf : o.1.2.rest <:+ der := (read_suffix ho).1.trans hs
  have : o.1.2.bytes <:+: der := (span_bytes_infix _).trans hsuf.isInfix
  rwa [hb] at this

/-- C135: reading a bundle does not end only if reading one of its certificates does not. -/
theorem C135_bundle_partial (buffer : List Byte) (h : parseCertificatesPem buffer = .error .diverges) : ∃ p, parseCertificate p .Pem = .error .diverges := by
  rw [parseCertificatesPem] at h
  by_cases hb : bundleLoop buffer (buffer.length + 1) ((findFrom buffer beginCertificate 0).getD npos)
      (findFrom buffer beginCertificate (((findFrom buffer beginCertificate 0).getD npos + 1) % 2 ^ 64)) [] = .error .diverges
  · exact stuck_bundle buffer _ _ _ _ (fun s hs => by have := findFrom_bound hs; omega) hb
  · obtain ⟨certs, -, h⟩ := stuck_bind h hb
    by_cases hp : parseCertificate buffer .Pem = .error .diverges
    · exact ⟨_, hp⟩
    · obtain ⟨c, -, h⟩ := stuck_bind h hp
      exact nomatch h

/-- C135: reading a private key does not end exactly if its modulus is read as 0 (whatever the exponents are). -/
theorem C135_private_partial (der : List Byte) : parsePrivateKey der .Der = .error .diverges ↔
    ∃ (root : (Byte × Span) × View) (version n e d : List U32 × View), (viewOf (spanOf der)).read = .ok root ∧ root.1.1 = 48#8 ∧
      parseBignum 32 (viewOf root.1.2) = .ok version ∧ parseBignum 4096 version.2 = .ok n ∧ parseBignum 4096 n.2 = .ok e ∧ parseBignum 4096 e.2 = .ok d ∧ value n.1 = 0 := by
  constructor
  · intro h
    obtain ⟨root, hroot, h⟩ := stuck_bind h (ends_read _)
    split at h
    · exact nomatch h
    next h48 =>
    obtain ⟨version, hv, h⟩ := stuck_bind h (ends_parseBignum _ _)
    obtain ⟨n, hn, h⟩ := stuck_bind h (ends_parseBignum _ _)
    obtain ⟨e, he, h⟩ := stuck_bind h (ends_parseBignum _ _)
    obtain ⟨d, hd, h⟩ := stuck_bind h (ends_parseBignum _ _)
    refine ⟨root, version, n, e, d, hroot, Decidable.not_not.mp h48, hv, hn, he, hd, ?_⟩
    by_contra h0
    have hm := montNew_stuck 128 (by decide) n.1 (parseBignum_width (by decide) hn)
    exact ends_bind (ends_bind (fun hd => h0 (hm.mp hd)) (fun _ _ => ends_bind (ends_bitLenLoop _ _) (fun _ _ => ends_pure _))) (fun _ _ => ends_pure _) h
  · rintro ⟨root, version, n, e, d, hroot, h48, hv, hn, he, hd, h0⟩
    have hm := (montNew_stuck 128 (by decide) n.1 (parseBignum_width (by decide) hn)).mpr h0
    rw [parsePrivateKey, parsePrivateKeyDer, hroot, ok_bind, if_neg (by rw [h48]; decide), hv, ok_bind, hn, ok_bind, he, ok_bind, hd, ok_bind, rsaPrivNew, hm]
    rfl

theorem zero_stuck : parseCertificate (certDer (bigTbs 0) [] []) .Der = .error .diverges :=
  (C113_partial _ [] [] (bigTbs_readable 0 [] [] (by decide +kernel))).2.1 (by decide +kernel) (by decide +kernel)

/-- A bundle that is never read to the end. -/
example : parseCertificatesPem (pemBundle [] [plainBlock (certDer (bigTbs 0) [] [])]) = .error .diverges := by
  rw [C72_single_partial [] _ (by simp) (plainBlock_valid _) (by decide +kernel), List.mapM_cons]
  change (parseCertificate (certDer (bigTbs 0) [] []) .Der >>= _) = _
  rw [zero_stuck]
  rfl

/-- C135 fails: a certificate whose modulus is 0 is never read to the end. -/
theorem C135_false : ¬ C135_claim := fun h => (h _ .Der).1 zero_stuck

/-- C135 fails for private keys: an element for the modulus that is not an INTEGER is read as 0. -/
theorem C135_false_private : ¬ C135_claim := by
  intro h
  refine (h [0x30#8, 8#8, 2#8, 0#8, 5#8, 0#8, 2#8, 0#8, 2#8, 0#8] .Der).2.1 ((C135_private_partial _).mpr ?_)
  refine ⟨((0x30#8, ⟨[2#8, 0#8, 5#8, 0#8, 2#8, 0#8, 2#8, 0#8], 8⟩), ⟨spanOf [0x30#8, 8#8, 2#8, 0#8, 5#8, 0#8, 2#8, 0#8, 2#8, 0#8], 10⟩),
    (bnOfBytes 32 [], ⟨⟨[2#8, 0#8, 5#8, 0#8, 2#8, 0#8, 2#8, 0#8], 8⟩, 2⟩), (bnOfU32 4096 0#32, ⟨⟨[2#8, 0#8, 5#8, 0#8, 2#8, 0#8, 2#8, 0#8], 8⟩, 4⟩),
    (bnOfBytes 4096 [], ⟨⟨[2#8, 0#8, 5#8, 0#8, 2#8, 0#8, 2#8, 0#8], 8⟩, 6⟩), (bnOfBytes 4096 [], ⟨⟨[2#8, 0#8, 5#8, 0#8, 2#8, 0#8, 2#8, 0#8], 8⟩, 8⟩), ?_⟩
  exact ⟨rfl, rfl, rfl, rfl, rfl, rfl, by decide +kernel⟩

/-- A certificate for a key that is not an RSA key. -/
example : ¬ [0x2a#8, 0x86#8, 0x48#8, 0x86#8, 0xf7#8, 0x0d#8, 0x01#8, 0x01#8, 0x01#8] <:+: [0x30#8, 0x04#8, 0x30#8, 0x02#8, 0x02#8, 0x00#8] := by
  intro h; exact absurd h.length_le (by decide)

end Verif.Props
