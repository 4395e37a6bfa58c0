import Verif.Props.Verify
import Verif.Props.Truststore

/-! Concrete certificates and keys: the claims C74, C76, C77 fail. -/

namespace Verif.Props
open Verif.Model Verif.Proof Verif.Spec

/-- A number as 128 words. -/
def words (n : Nat) : List U32 := (List.range 128).map (fun i => BitVec.ofNat 32 (n / 2 ^ (32 * i)))

/-- A key made from a modulus, with exponent 17. -/
theorem key_exists (n : Nat) (hv : value (words n) = n) (he : value (words 17) = 17) (hodd : n % 2 = 1) (h1 : 1 < n) :
    ∃ k, KeyOk k ∧ value k.n = n ∧ value k.e = 17 := by
  have ln : (words n).length = 128 := by simp [words]
  have le : (words 17).length = 128 := by simp [words]
  obtain ⟨k, hk, h2, h3, _⟩ := rsaPubNew_spec 128 (by decide) (words n) (words 17) ln le (by rw [hv]; exact hodd) (by rw [hv]; exact h1)
  refine ⟨k, ⟨by rw [h2]; exact ln, by rw [h3]; exact le, by rw [h2, hv]; exact hodd, by rw [h2, hv]; exact h1, ?_⟩, by rw [h2, hv], by rw [h3, he]⟩
  rw [h2, h3]
  exact hk

/-- SHA-256 of the empty SEQUENCE. -/
def emptyDigest : List Byte := [0xe4#8, 0xf6#8, 0x0d#8, 0x0a#8, 0xa6#8, 0xd7#8, 0xf3#8, 0xd3#8, 0xb6#8, 0xa6#8, 0x49#8, 0x4b#8, 0x1c#8, 0x86#8, 0x1b#8, 0x99#8, 0xf6#8, 0x49#8, 0xc6#8, 0xf9#8, 0xec#8, 0x51#8, 0xab#8, 0xaf#8, 0x20#8, 0x1b#8, 0x20#8, 0xf2#8, 0x97#8, 0x32#8, 0x7c#8, 0x95#8]

theorem emptyDigest_eq : digest .sha2_256 (tlv 0x30#8 []) = emptyDigest := by
  rw [← hashOf_eq .sha2_256 _ (by decide)]
  decide +kernel

def sha256Id : List Nat := [2, 16, 840, 1, 101, 3, 4, 2, 1]
def sha256Rsa : List Nat := [1, 2, 840, 113549, 1, 1, 11]

/-- Encoded message of the empty SEQUENCE with `k` octets. -/
def emptyEm (k : Nat) : List Byte := [0x00#8, 0x01#8] ++ List.replicate (k - 54) 0xFF#8 ++ [0x00#8] ++ digestInfo sha256Id emptyDigest

theorem codeEm_empty (k : Nat) : codeEm sha256Id .sha2_256 [] k = emptyEm k := by
  rw [codeEm, emptyDigest_eq, emptyEm]
  rfl

/-- A modulus for which `2^29` is a signature of the empty SEQUENCE: `(2^29)^17` is the encoded message plus the modulus. -/
def emptyModulus (k : Nat) : Nat := 2 ^ 493 - beNat (emptyEm k)

theorem emptyModulus_facts : (value (words (emptyModulus 62)) = emptyModulus 62 ∧ emptyModulus 62 % 2 = 1 ∧ 2 ^ 488 ≤ emptyModulus 62 ∧ emptyModulus 62 < 2 ^ 495) ∧
    (value (words (emptyModulus 63)) = emptyModulus 63 ∧ emptyModulus 63 % 2 = 1 ∧ 2 ^ 488 ≤ emptyModulus 63 ∧ emptyModulus 63 < 2 ^ 495) ∧ value (words 17) = 17 := by
  decide +kernel

theorem octetLength_eq {n k : Nat} (h1 : 2 ^ (8 * k) ≤ n) (h2 : n < 2 ^ (8 * (k + 1))) : octetLength n = k + 1 := by
  have hp : 1 ≤ 2 ^ (8 * k) := Nat.one_le_two_pow
  have hle : octetLength n ≤ k + 1 := (minBytes_spec n).2 (k + 1) (by rw [show 256 = 2 ^ 8 from rfl, ← Nat.pow_mul]; exact h2)
  have hlt := beNat_lt (minBytes n)
  rw [(minBytes_spec n).1] at hlt
  have : 8 * k < 8 * octetLength n := (Nat.pow_lt_pow_iff_right (by decide : 1 < 2)).mp (Nat.lt_of_le_of_lt h1 hlt)
  omega

/-- A certificate over the bytes `header` that the code takes for an empty TBSCertificate. -/
def emptyCert (header : List Byte) (unused : Byte) (sig : List Byte) : List Byte :=
  tlv 0x30#8 (header ++ (tlv 0x30#8 (tlv 0x06#8 (oidContent sha256Rsa) ++ tlv 0x05#8 []) ++ tlv 0x03#8 (unused :: sig)))

/-- The signature `s` with `k` octets. -/
def sigOctets (s k : Nat) : List Byte := i2osp s k

/-- The three certificates: DER, with a long form of the length 0, with a signature one octet longer than the modulus, with the modulus added to
the signature. -/
def wGood : List Byte := emptyCert [0x30#8, 0x00#8] 0x00#8 (sigOctets (2 ^ 29) 62)
def wHeader : List Byte := emptyCert [0x30#8, 0x81#8, 0x00#8] 0x00#8 (sigOctets (2 ^ 29) 62)
def wLength : List Byte := emptyCert [0x30#8, 0x00#8] 0x00#8 (sigOctets (2 ^ 29) 63)
def wRange : List Byte := emptyCert [0x30#8, 0x00#8] 0x00#8 (sigOctets (2 ^ 29 + emptyModulus 62) 62)

theorem wGood_eval (k : RsaPub) : verifySignature wGood (some k) = validateSignature k (schemeOf (oidContent sha256Rsa)) [] (sigOctets (2 ^ 29) 62).reverse := by kernel_rfl
theorem wHeader_eval (k : RsaPub) : verifySignature wHeader (some k) = validateSignature k (schemeOf (oidContent sha256Rsa)) [] (sigOctets (2 ^ 29) 62).reverse := by kernel_rfl
theorem wLength_eval (k : RsaPub) : verifySignature wLength (some k) = validateSignature k (schemeOf (oidContent sha256Rsa)) [] (sigOctets (2 ^ 29) 63).reverse := by kernel_rfl
theorem wRange_eval (k : RsaPub) : verifySignature wRange (some k) =
    validateSignature k (schemeOf (oidContent sha256Rsa)) [] (sigOctets (2 ^ 29 + emptyModulus 62) 62).reverse := by kernel_rfl

theorem parts : certificateParts wHeader = some ([0x30#8, 0x81#8, 0x00#8], oidContent sha256Rsa, sigOctets (2 ^ 29) 62) ∧
    certificateParts wLength = some ([0x30#8, 0x00#8], oidContent sha256Rsa, sigOctets (2 ^ 29) 63) ∧
    certificateParts wRange = some ([0x30#8, 0x00#8], oidContent sha256Rsa, sigOctets (2 ^ 29 + emptyModulus 62) 62) := by decide +kernel

/-- An issuer with a given key, valid at all times. -/
def anyIssuer (name : List Byte) (k : RsaPub) : Cert := { subject := name, issuer := name, validity_end := 0xFFFFFFFFFFFFFFFF#64, pubkey := some k }

/-- `verify` for certificates over the empty SEQUENCE. -/
theorem empty_verify (name : List Byte) (k : RsaPub) (hk : KeyOk k) (c : Cert) (sig : List Byte) (hs : sig.length < 2 ^ 63) (hs' : ¬ sig.length ≤ digestLength .sha2_256 + 19)
    (hev : verifySignature c.derCert (some k) = validateSignature k (schemeOf (oidContent sha256Rsa)) [] sig.reverse)
    (heq : beNat (emptyEm sig.length) % 2 ^ 4096 = (beNat sig % 2 ^ 4096) ^ value k.e % value k.n)
    (hnz : (beNat sig % 2 ^ 4096) ^ value k.e % value k.n ≠ 0) : c.verify (anyIssuer name k) = .ok true := by
  rw [verify_nested_iff, if_pos (by
    refine ⟨BitVec.not_lt.mp (BitVec.not_lt_zero), ?_⟩
    show c.validity_end ≤ 0xFFFFFFFFFFFFFFFF#64
    rw [BitVec.le_def]
    have := c.validity_end.isLt
    rw [show (0xFFFFFFFFFFFFFFFF#64).toNat = 2 ^ 64 - 1 from rfl]
    omega)]
  refine hev.trans ?_
  rw [validateSignature_known k .sha2_256 sha256Rsa rfl, validate_exact k hk .sha2_256 sha256Rsa rfl sha256Id rfl [] sig (by decide) hs, if_neg hs', codeEm_empty,
    canonN_of_mod hnz, heq, decide_eq_true rfl]

theorem key62 : ∃ k, KeyOk k ∧ value k.n = emptyModulus 62 ∧ value k.e = 17 :=
  key_exists _ emptyModulus_facts.1.1 emptyModulus_facts.2.2 emptyModulus_facts.1.2.1 (by have := emptyModulus_facts.1.2.2.1; omega)

theorem key63 : ∃ k, KeyOk k ∧ value k.n = emptyModulus 63 ∧ value k.e = 17 :=
  key_exists _ emptyModulus_facts.2.1.1 emptyModulus_facts.2.2 emptyModulus_facts.2.1.2.1 (by have := emptyModulus_facts.2.1.2.2.1; omega)

theorem sig_facts : ((sigOctets (2 ^ 29) 62).length = 62 ∧ beNat (emptyEm 62) % 2 ^ 4096 = (beNat (sigOctets (2 ^ 29) 62) % 2 ^ 4096) ^ 17 % emptyModulus 62 ∧
      (beNat (sigOctets (2 ^ 29) 62) % 2 ^ 4096) ^ 17 % emptyModulus 62 ≠ 0) ∧
    ((sigOctets (2 ^ 29) 63).length = 63 ∧ beNat (emptyEm 63) % 2 ^ 4096 = (beNat (sigOctets (2 ^ 29) 63) % 2 ^ 4096) ^ 17 % emptyModulus 63 ∧
      (beNat (sigOctets (2 ^ 29) 63) % 2 ^ 4096) ^ 17 % emptyModulus 63 ≠ 0) ∧
    ((sigOctets (2 ^ 29 + emptyModulus 62) 62).length = 62 ∧
      beNat (emptyEm 62) % 2 ^ 4096 = (beNat (sigOctets (2 ^ 29 + emptyModulus 62) 62) % 2 ^ 4096) ^ 17 % emptyModulus 62 ∧
      (beNat (sigOctets (2 ^ 29 + emptyModulus 62) 62) % 2 ^ 4096) ^ 17 % emptyModulus 62 ≠ 0 ∧ beNat (sigOctets (2 ^ 29 + emptyModulus 62) 62) = 2 ^ 29 + emptyModulus 62) := by
  decide +kernel

theorem verify62 (name : List Byte) (k : RsaPub) (hk : KeyOk k) (hn : value k.n = emptyModulus 62) (he : value k.e = 17) (c : Cert)
    (hev : verifySignature c.derCert (some k) = validateSignature k (schemeOf (oidContent sha256Rsa)) [] (sigOctets (2 ^ 29) 62).reverse) :
    c.verify (anyIssuer name k) = .ok true := by
  obtain ⟨h1, h2, h3⟩ := sig_facts.1
  refine empty_verify name k hk c (sigOctets (2 ^ 29) 62) (by rw [h1]; decide) (by rw [h1]; decide) hev ?_ ?_
  · rw [h1, hn, he]; exact h2
  · rw [hn, he]; exact h3

/-- SHA-256 of the empty SEQUENCE with a long length. -/
def longDigest : List Byte := [0xfb#8, 0x48#8, 0x2e#8, 0x43#8, 0x1d#8, 0x91#8, 0xfc#8, 0xe6#8, 0xd2#8, 0xc6#8, 0x40#8, 0x81#8, 0x16#8, 0xf2#8, 0xb2#8, 0xec#8, 0xb3#8, 0xd4#8, 0xfc#8, 0xf3#8, 0x68#8, 0xe4#8, 0x7f#8, 0x46#8, 0xa6#8, 0x70#8, 0x7e#8, 0x83#8, 0x26#8, 0x75#8, 0x94#8, 0x3a#8]

theorem longDigest_eq : digest .sha2_256 [0x30#8, 0x81#8, 0x00#8] = longDigest := by
  rw [← hashOf_eq .sha2_256 _ (by decide)]
  decide +kernel

theorem hash_of_alg {h : HashClass} {alg : List Nat} (ha : rsaSignatureAlgorithm h = some alg) (e : oidContent sha256Rsa = oidContent alg) : h = .sha2_256 := by
  obtain ⟨d1, d2, d3⟩ := algorithms_distinct
  rcases known_cases ha with ⟨rfl, rfl⟩ | ⟨rfl, rfl⟩ | ⟨rfl, rfl⟩
  · rfl
  · exact absurd e d1
  · exact absurd e d2

/-- C74 fails: the header of the TBSCertificate is not the one that is hashed. The bytes `30 81 00` are accepted with a signature of `30 00`. -/
theorem C74_false_header : ¬ C74_claim := by
  intro h
  obtain ⟨k, hk, hn, he⟩ := key62
  obtain ⟨_, tbs, oid, sig, h, alg, hp, ha, ho, hlen, _, hid, hh, hem⟩ := h { derCert := wHeader } (anyIssuer [] k) k rfl hk (verify62 [] k hk hn he _ (wHeader_eval k))
  rw [parts.1] at hp
  injection hp with hp
  injection hp with ht hp
  injection hp with hoid hsig
  subst ht hoid hsig
  obtain rfl := hash_of_alg ha ho
  obtain rfl : sha256Id = hid := Option.some.inj hh
  have hb := emptyModulus_facts.1
  rw [emsaPkcs1, hn, he, octetLength_eq (k := 61) hb.2.2.1 (by have := hb.2.2.2; omega), longDigest_eq] at hem
  exact absurd hem (by decide +kernel)

/-- C74 fails: a signature with more octets than the modulus is accepted. -/
theorem C74_false_length : ¬ C74_claim := by
  intro h
  obtain ⟨k, hk, hn, he⟩ := key63
  obtain ⟨f1, f2, f3⟩ := sig_facts.2.1
  obtain ⟨_, tbs, oid, sig, h, alg, hp, _, _, hlen, _⟩ := h { derCert := wLength } (anyIssuer [] k) k rfl hk
    (empty_verify [] k hk _ (sigOctets (2 ^ 29) 63) (by rw [f1]; decide) (by rw [f1]; decide) (wLength_eval k) (by rw [f1, hn, he]; exact f2) (by rw [hn, he]; exact f3))
  rw [parts.2.1] at hp
  injection hp with hp
  injection hp with ht hp
  injection hp with hoid hsig
  subst ht hoid hsig
  have hb := emptyModulus_facts.2.1
  rw [f1, hn, octetLength_eq (k := 61) hb.2.2.1 (by have := hb.2.2.2; omega)] at hlen
  exact absurd hlen (by decide)

/-- C74 fails: a signature that is not below the modulus is accepted. -/
theorem C74_false_range : ¬ C74_claim := by
  intro h
  obtain ⟨k, hk, hn, he⟩ := key62
  obtain ⟨f1, f2, f3, f4⟩ := sig_facts.2.2
  obtain ⟨_, tbs, oid, sig, h, alg, hp, _, _, _, hlt, _⟩ := h { derCert := wRange } (anyIssuer [] k) k rfl hk
    (empty_verify [] k hk _ (sigOctets (2 ^ 29 + emptyModulus 62) 62) (by rw [f1]; decide) (by rw [f1]; decide) (wRange_eval k) (by rw [f1, hn, he]; exact f2)
      (by rw [hn, he]; exact f3))
  rw [parts.2.2] at hp
  injection hp with hp
  injection hp with ht hp
  injection hp with hoid hsig
  subst ht hoid hsig
  rw [f4, hn] at hlt
  omega

/-! The hypotheses of `C74_partial`, `C74_any_partial`, `C75`, `C76_partial`, `C77_partial`, `C77_order_partial` and `C78_list` hold for these certificates. -/

example : ∃ (c i : Cert) (k : RsaPub) (tbs oid par sig : List Byte), c.derCert = simpleCert tbs oid par sig ∧ i.pubkey = some k ∧ KeyOk k ∧ c.derCert.length < 2 ^ 24 ∧
    sig.length = octetLength (value k.n) ∧ beNat sig < value k.n ∧
    (∀ h alg, rsaSignatureAlgorithm h = some alg → oid = oidContent alg → digestLength h + 30 ≤ sig.length) ∧ c.verify i = .ok true := by
  obtain ⟨k, hk, hn, he⟩ := key62
  have hb := emptyModulus_facts.1
  refine ⟨{ derCert := wGood }, anyIssuer [] k, k, [], oidContent sha256Rsa, tlv 0x05#8 [], sigOctets (2 ^ 29) 62, rfl, rfl, hk, by decide +kernel, ?_, ?_, ?_,
    verify62 [] k hk hn he _ (wGood_eval k)⟩
  · rw [hn, octetLength_eq (k := 61) hb.2.2.1 (by have := hb.2.2.2; omega)]; decide +kernel
  · rw [hn]; exact Nat.lt_of_lt_of_le (by decide +kernel : beNat (sigOctets (2 ^ 29) 62) < 2 ^ 488) hb.2.2.1
  · intro h alg ha ho
    obtain rfl := hash_of_alg ha ho
    decide +kernel

/-- A store with one certificate, named A, and a certificate for B signed with its key. -/
theorem demo_trust : ∃ (k : RsaPub) (leaf : Cert), leaf.subject = [0x42#8] ∧ leaf.issuer = [0x41#8] ∧ leaf.verify (anyIssuer [0x41#8] k) = .ok true ∧
    (∀ now, ValidAt now leaf) ∧ (storeOf [anyIssuer [0x41#8] k]).trust [leaf] 0#64 = .ok (true, [leaf]) := by
  obtain ⟨k, hk, hn, he⟩ := key62
  set c : Cert := { anyIssuer [0x41#8] k with derCert := wGood, subject := [0x42#8] } with hc
  have hv : c.verify (anyIssuer [0x41#8] k) = .ok true := verify62 [0x41#8] k hk hn he c (wGood_eval k)
  refine ⟨k, c, rfl, rfl, hv, fun now => ⟨BitVec.not_lt.mp BitVec.not_lt_zero, ?_⟩, ?_⟩
  · show now ≤ 0xFFFFFFFFFFFFFFFF#64
    rw [BitVec.le_def]
    have := now.isLt
    rw [show (0xFFFFFFFFFFFFFFFF#64).toNat = 2 ^ 64 - 1 from rfl]
    omega
  · have : (storeOf [anyIssuer [0x41#8] k]).trust [c] 0#64 = (c.verify (anyIssuer [0x41#8] k) >>= fun good =>
        if good then return (true, [c]) else do
          let certs ← wr [c] 0 {}
          trustLoop (storeOf [anyIssuer [0x41#8] k]) 3 (storeMap (storeOf [anyIssuer [0x41#8] k])) certs 0) := by rfl
    rw [this, hv]
    rfl

example : ∃ (added certs chain : List Cert) (root : Cert) (now : U64), (certs.map Cert.subject).Nodup ∧ ChainTo (storeOf added) certs chain root ∧
    (∀ c, certs.head? = some c → ValidAt now c) ∧ (∀ c ∈ chain, (storeOf added).get c.subject = none) ∧
    (∀ c ∈ certs, ∀ i, ((∃ name, (storeOf added).get name = some i) ∨ i ∈ certs) → i.subject = c.issuer → ∃ b, c.verify i = .ok b) := by
  obtain ⟨k, leaf, h1, h2, hv, hva, _⟩ := demo_trust
  have hs : (anyIssuer [0x41#8] k).subject = [0x41#8] := rfl
  refine ⟨[anyIssuer [0x41#8] k], [leaf], [leaf], anyIssuer [0x41#8] k, 0#64, by simp, ⟨rfl, by simp, by simp, by simp [h2, hs, hv], by rw [C78_get]; simp⟩,
    fun c hc => by injection hc with hc; subst hc; exact hva _, fun c hc => by rw [List.mem_singleton.mp hc, C78_get, h1]; rfl, fun c hc i hi hn => ?_⟩
  rw [List.mem_singleton] at hc
  subst hc
  rcases hi with ⟨name, hi⟩ | hi
  · rw [C78_get] at hi
    have := List.mem_of_find?_eq_some hi
    rw [List.reverse_singleton, List.mem_singleton] at this
    subst this
    exact ⟨true, hv⟩
  · rw [List.mem_singleton] at hi
    subst hi
    rw [h1, h2] at hn
    exact absurd hn (by decide)

/-- C77 fails: a self-signed certificate that is in the store is not trusted. -/
theorem C77_false : ¬ C77_claim := by
  intro h
  obtain ⟨k, hk, hn, he⟩ := key62
  set c : Cert := { anyIssuer [0x41#8] k with derCert := wGood } with hc
  have hv : c.verify c = .ok true := verify62 [0x41#8] k hk hn he c (wGood_eval k)
  obtain ⟨certs', ht⟩ := h [c] [c] [c] c 0#64 List.nodup_nil ⟨rfl, by simp, by simp, by simp [hv]; rfl, by rw [C78_get]; simp⟩
    (fun x hx => by injection hx with hx; subst hx; exact ⟨BitVec.le_refl _, BitVec.not_lt.mp (BitVec.not_lt_zero)⟩)
  have : (storeOf [c]).trust [c] 0#64 = .ok (false, [c]) := by rfl
  rw [this] at ht
  injection ht with ht
  injection ht with h1 _
  exact Bool.noConfusion h1

def wShort : List Byte := emptyCert [0x30#8, 0x00#8] 0x00#8 [0x01#8]

theorem wShort_eval (k : RsaPub) : verifySignature wShort (some k) = validateSignature k (schemeOf (oidContent sha256Rsa)) [] [0x01#8] := by kernel_rfl

/-- C76 fails: a signature that is too short makes `verify`, and so `trust`, run forever. -/
theorem C76_false : ¬ C76_claim := by
  intro h
  obtain ⟨k, hk, _⟩ := key62
  set c : Cert := { anyIssuer [0x41#8] k with derCert := wShort, subject := [0x42#8] } with hc
  have hv : c.verify (anyIssuer [0x41#8] k) = .error .diverges := by
    rw [verify_nested_iff, if_pos ⟨BitVec.le_refl _, BitVec.le_refl _⟩]
    refine (wShort_eval k).trans ?_
    rw [validateSignature_known k .sha2_256 sha256Rsa rfl]
    exact (validate_exact k hk .sha2_256 sha256Rsa rfl sha256Id rfl [] [0x01#8] (by decide) (by decide)).trans (if_pos (by decide))
  refine h [anyIssuer [0x41#8] k] [c] 0#64 ?_
  have : (storeOf [anyIssuer [0x41#8] k]).trust [c] 0#64 = (c.verify (anyIssuer [0x41#8] k) >>= fun good =>
      if good then return (true, [c]) else do
        let certs ← wr [c] 0 {}
        trustLoop (storeOf [anyIssuer [0x41#8] k]) 3 (storeMap (storeOf [anyIssuer [0x41#8] k])) certs 0) := by rfl
  rw [this, hv]
  rfl

end Verif.Props
