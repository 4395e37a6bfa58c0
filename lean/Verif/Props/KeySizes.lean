import Verif.Proof.KeySizes
import Verif.Props.Verify
import Verif.Props.Cert
import Mathlib.FieldTheory.Finite.Basic

/-! Property C113: RSA keys of every size in certificates. -/

namespace Verif.Props
open Verif.Model Verif.Proof Verif.Spec

/-- The names and dates of the certificate are unproblematic; nothing is said about the key. -/
structure Readable (t : Tbs) (algorithm signature : List Byte) : Prop where
  issuer : Encodable t.issuer
  subject : Encodable t.subject
  start : GoodDate t.notBefore
  stop : GoodDate t.notAfter
  unique : t.issuerUniqueID = none ∧ t.subjectUniqueID = none
  length : (certDer t algorithm signature).length < 2 ^ 64

/-- C113, full claim: the key of the certificate is the encoded one, or the certificate is refused by an exception. -/
def C113_claim : Prop := ∀ (t : Tbs) (algorithm signature : List Byte), Readable t algorithm signature →
  (∃ c k, parseCertificate (certDer t algorithm signature) .Der = .ok c ∧ c.pubkey = some k ∧ value k.n = t.modulus ∧ value k.e = t.exponent) ∨
  parseCertificate (certDer t algorithm signature) .Der = .error .thrown

/-- C113: what becomes of a key of any size. Only the low 4096 bits of modulus and exponent count. -/
theorem C113_partial (t : Tbs) (algorithm signature : List Byte) (h : Readable t algorithm signature) :
    (t.exponent % 2 ^ 4096 < 17 → parseCertificate (certDer t algorithm signature) .Der = .error .thrown) ∧
    (17 ≤ t.exponent % 2 ^ 4096 → t.modulus % 2 ^ 4096 = 0 → parseCertificate (certDer t algorithm signature) .Der = .error .diverges) ∧
    (17 ≤ t.exponent % 2 ^ 4096 → t.modulus % 2 ^ 4096 ≠ 0 → ∃ c k, parseCertificate (certDer t algorithm signature) .Der = .ok c ∧
      c.derCert = certDer t algorithm signature ∧ nameString t.subject = .ok c.subject ∧ (c.validity_start.toNat : Int) = unixTime t.notBefore ∧
      (c.validity_end.toNat : Int) = unixTime t.notAfter ∧ c.pubkey = some k ∧
      value k.n = t.modulus % 2 ^ 4096 ∧ value k.e = t.exponent % 2 ^ 4096 ∧ k.n.length = 128 ∧ k.e.length = 128 ∧ rsaPubNew 4096 k.n k.e = .ok k) := by
  obtain ⟨x, t1, t2, v, P, vx, ht1, ht2, hv, hlen, start⟩ := parse_cert_any t algorithm signature h.issuer h.subject h.start h.stop h.length
  have hkey := parsePublicKey_any hv hlen
  have hu : ¬ (t.issuerUniqueID ≠ none ∨ t.subjectUniqueID ≠ none) := by rw [h.unique.1, h.unique.2]; simp
  refine ⟨fun h17 => ?_, fun h17 h0 => ?_, fun h17 h0 => ?_⟩
  · rw [if_pos h17] at hkey
    rw [start, hkey, error_bind]
  · rw [if_neg (Nat.not_lt.mpr h17), if_pos h0] at hkey
    rw [start, hkey, error_bind]
  · rw [if_neg (Nat.not_lt.mpr h17), if_neg h0] at hkey
    obtain ⟨k, ek, hk⟩ := hkey
    rw [start, ek, ok_bind, if_neg hu]
    exact ⟨_, k, rfl, rfl, nameString_eq _ h.subject, ht1, ht2, rfl, hk.n, hk.e, hk.ln, hk.le, hk.new⟩

/-- A case that meets the hypotheses of `C113_partial`. -/
example : Readable (demoTbs 4711 65537 none) [] [] ∧ 17 ≤ (demoTbs 4711 65537 none).exponent % 2 ^ 4096 ∧ (demoTbs 4711 65537 none).modulus % 2 ^ 4096 ≠ 0 :=
  have h := demoTbs_ordinary 4711 65537 none (by decide) (by decide +kernel)
  ⟨⟨h.issuer.1, h.subject.1, h.start, h.stop, ⟨rfl, rfl⟩, by decide +kernel⟩, by decide +kernel, by decide +kernel⟩

theorem i2osp_of_length (l : List Byte) (k : Nat) (h : l.length = k) : i2osp (beNat l) k = l := h ▸ i2osp_beNat l

theorem beNat_cons_zero (l : List Byte) : beNat (0x00#8 :: l) = beNat l := by
  rw [beNat, List.reverse_cons, leNat_append, beNat, show leNat [0x00#8] = 0 from rfl, Nat.mul_zero, Nat.add_zero]

theorem prime_power {q : Nat} (hp : q.Prime) (x n : Nat) (hn : n % (q - 1) = 1) : x ^ n % q = x % q := by
  haveI := Fact.mk hp
  have : ((x ^ n : ℕ) : ZMod q) = (x : ZMod q) := by
    push_cast
    rw [← Nat.div_add_mod n (q - 1), hn, pow_succ, pow_mul]
    by_cases h0 : (x : ZMod q) = 0
    · rw [h0, mul_zero]
    · rw [ZMod.pow_card_sub_one_eq_one h0, one_pow, one_mul]
  exact (ZMod.natCast_eq_natCast_iff' _ _ _).mp this

/-- C113: if the low 4096 bits of the modulus form a prime, everybody can sign: `d` is computed from the public key alone, and the power of the
encoded message is accepted as the signature of any certificate. -/
theorem C113_forge_partial (t : Tbs) (algorithm signature : List Byte) (h : Readable t algorithm signature) (q d : Nat) (hq : t.modulus % 2 ^ 4096 = q) (hp : q.Prime) (hodd : q ≠ 2)
    (he : 17 ≤ t.exponent % 2 ^ 4096) (hd : (t.exponent % 2 ^ 4096) * d % (q - 1) = 1)
    (i : Cert) (hi : parseCertificate (certDer t algorithm signature) .Der = .ok i)
    (c : Cert) (hash : HashClass) (alg hid : List Nat) (tbs par em : List Byte) (ha : rsaSignatureAlgorithm hash = some alg) (ho : hashOid hash = some hid)
    (hem : emsaPkcs1 (digest hash) hid (tlv 0x30#8 tbs) (octetLength q) = some em) (hlong : digestLength hash + 30 ≤ octetLength q)
    (hc : c.derCert = simpleCert tbs (oidContent alg) par (i2osp (beNat em ^ d % q) (octetLength q))) (hl : c.derCert.length < 2 ^ 24) (hn : Nested c i) :
    c.verify i = .ok true := by
  obtain ⟨c', k, hc', -, -, -, -, hk, kn, ke, ln, le, new⟩ := (C113_partial t algorithm signature h).2.2 he (by rw [hq]; exact hp.ne_zero)
  rw [hi] at hc'
  injection hc' with hc'
  subst hc'
  rw [hq] at kn
  have ok : KeyOk k := ⟨ln, le, by rw [kn]; exact hp.eq_two_or_odd.resolve_left hodd, by rw [kn]; exact hp.one_lt, new⟩
  obtain ⟨b, hb, hbi⟩ := verify_known c i k tbs par _ hash alg hc hk ok ha hl (by rw [i2osp_length, kn]) (by rw [i2osp_length]; exact hlong)
  rw [hb, hbi.mpr]
  refine ⟨hn, hid, ho, ?_⟩
  rw [i2osp_length, kn, ke, hem, beNat_i2osp]
  have hK : 0 < octetLength q := by omega
  have lower : 256 ^ (octetLength q - 1) ≤ q := by
    by_contra hlt
    have := (minBytes_spec q).2 _ (Nat.lt_of_not_le hlt)
    rw [← octetLength] at this
    omega
  have upper : q < 2 ^ (8 * octetLength q) := by
    have := beNat_lt (minBytes q)
    rwa [(minBytes_spec q).1, ← octetLength] at this
  have lem : em.length = octetLength q := by
    rw [emsaPkcs1] at hem
    split at hem
    · exact nomatch hem
    · injection hem with hem
      rw [← hem]
      simp
      omega
  have small : beNat em < q := by
    rw [emsaPkcs1] at hem
    split at hem
    · exact nomatch hem
    · injection hem with hem
      rw [List.cons_append, List.cons_append, List.cons_append] at hem
      rw [← hem] at lem ⊢
      rw [List.length_cons] at lem
      rw [beNat_cons_zero]
      refine lt_of_lt_of_le (beNat_lt _) (le_trans ?_ lower)
      rw [show (256 : Nat) = 2 ^ 8 from rfl, ← pow_mul]
      exact Nat.pow_le_pow_right (by decide) (by omega)
  rw [Nat.mod_eq_of_lt (lt_trans (Nat.mod_lt _ hp.pos) upper), ← Nat.pow_mod, ← pow_mul, Nat.mul_comm d, prime_power hp _ _ hd, Nat.mod_eq_of_lt small, i2osp_of_length _ _ lem]

/-- A certificate with a chosen modulus. -/
def bigTbs (n : Nat) : Tbs := { demoTbs 1 65537 none with modulus := n }

theorem bigTbs_readable (n : Nat) (algorithm signature : List Byte) (h : (certDer (bigTbs n) algorithm signature).length < 2 ^ 64) : Readable (bigTbs n) algorithm signature :=
  ⟨demoName_plain.1, demoName_plain.1, demoStart, demoStop, ⟨rfl, rfl⟩, h⟩

/-- C113 fails: of a modulus of 4098 bits the low 4096 are used. -/
theorem C113_false_truncated : ¬ C113_claim := by
  intro h
  have hr := bigTbs_readable (3 * 2 ^ 4096 + (2 ^ 521 - 1)) [] [] (by decide +kernel)
  have hm : (bigTbs (3 * 2 ^ 4096 + (2 ^ 521 - 1))).modulus % 2 ^ 4096 = 2 ^ 521 - 1 := by decide +kernel
  obtain ⟨c', k', hc', -, -, -, -, hk', kn', -⟩ := (C113_partial _ [] [] hr).2.2 (by decide +kernel) (by rw [hm]; decide +kernel)
  rcases h _ [] [] hr with ⟨c, k, hc, hk, kn, -⟩ | e
  · rw [hc'] at hc
    injection hc with hc
    subst hc
    rw [hk'] at hk
    injection hk with hk
    subst hk
    rw [kn', hm] at kn
    exact absurd kn (by decide +kernel)
  · rw [e] at hc'
    exact nomatch hc'

/-- C113 fails: with the modulus 0 `parseCertificate` does not return. -/
theorem C113_false_zero : ¬ C113_claim := by
  intro h
  have hr := bigTbs_readable 0 [] [] (by decide +kernel)
  have hd := (C113_partial _ [] [] hr).2.1 (by decide +kernel) (by decide +kernel)
  rcases h _ [] [] hr with ⟨c, k, hc, -⟩ | e
  · rw [hd] at hc
    exact nomatch hc
  · rw [hd] at e
    exact nomatch e

/-- The hypotheses of the forgery hold for a modulus of 4098 bits: the private exponent for the prime `2^521 - 1` is public knowledge. -/
example : ∃ d, (bigTbs (3 * 2 ^ 4096 + (2 ^ 521 - 1))).modulus % 2 ^ 4096 = 2 ^ 521 - 1 ∧ (2 ^ 521 - 1).Prime ∧ 2 ^ 521 - 1 ≠ 2 ∧
    17 ≤ (bigTbs (3 * 2 ^ 4096 + (2 ^ 521 - 1))).exponent % 2 ^ 4096 ∧
    (bigTbs (3 * 2 ^ 4096 + (2 ^ 521 - 1))).exponent % 2 ^ 4096 * d % (2 ^ 521 - 1 - 1) = 1 ∧ digestLength .sha2_256 + 30 ≤ octetLength (2 ^ 521 - 1) :=
  ⟨5155328233496318390256865764810548697290840245466729669258087920880340553538954146776874404297340568416582885358721232128614872261196790492751513654940106623,
    by decide +kernel, prime_521, by decide +kernel, by decide +kernel, by decide +kernel, by decide +kernel⟩

end Verif.Props
