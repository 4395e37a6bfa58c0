import Verif.Props.Hkdf
import Verif.Props.SignedFields
import Verif.Props.CrcForge
import Verif.Props.VerifyWitness

/-! C118: what is accepted twice gives a hash collision. -/

namespace Verif.Props

open Verif.Model Verif.Proof Verif.Spec

/-- Two different byte strings with the same standard digest. -/
def Collides (c : HashClass) (x y : List Byte) : Prop := x ≠ y ∧ digest c x = digest c y

/-! ### HMAC -/

/-- The inner and outer key blocks. -/
def padded (c : HashClass) (pad : Byte) (key : List Byte) : List Byte :=
  (key.take (2 * digestLength c) ++ List.replicate (2 * digestLength c - key.length) 0#8).map (· ^^^ pad)

theorem padded_length (c : HashClass) (pad : Byte) (key : List Byte) : (padded c pad key).length = 2 * digestLength c := by
  rw [padded]; simp; omega

theorem padded_inj (c : HashClass) (p q : Byte) (key key' : List Byte) (h : padded c p key = padded c p key') : padded c q key = padded c q key' := by
  rw [padded, padded] at h
  have hinj : Function.Injective (fun x : Byte => x ^^^ p) := by
    intro x y hxy
    have := congrArg (· ^^^ p) hxy
    simpa [BitVec.xor_assoc] using this
  rw [padded, padded, List.map_injective_iff.mpr hinj h]

theorem hmac_digest (c : HashClass) (text key : List Byte) (ht : text.length < 2 ^ 60) :
    Model.hmac c text key = digest c (padded c 0x5C#8 key ++ digest c (padded c 0x36#8 key ++ text)) := by
  rw [C65_exact c text key ht, rfc2104, if_neg (by rw [List.length_take]; omega)]
  have e : 2 * digestLength c - (key.take (2 * digestLength c)).length = 2 * digestLength c - key.length := by rw [List.length_take]; omega
  simp only [e]
  rfl

/-- C118 for HMAC: if two pairs of key and text have the same MAC, then the texts are the same and the keys agree after padding and truncation to twice the
digest length, or one of two given pairs of strings is a collision of the hash. -/
theorem C118_hmac (c : HashClass) (text key text' key' : List Byte) (ht : text.length < 2 ^ 60) (ht' : text'.length < 2 ^ 60)
    (h : Model.hmac c text key = Model.hmac c text' key') :
    (text = text' ∧ padded c 0#8 key = padded c 0#8 key') ∨
    Collides c (padded c 0x36#8 key ++ text) (padded c 0x36#8 key' ++ text') ∨
    Collides c (padded c 0x5C#8 key ++ digest c (padded c 0x36#8 key ++ text)) (padded c 0x5C#8 key' ++ digest c (padded c 0x36#8 key' ++ text')) := by
  rw [hmac_digest c text key ht, hmac_digest c text' key' ht'] at h
  by_cases h1 : padded c 0x5C#8 key ++ digest c (padded c 0x36#8 key ++ text) = padded c 0x5C#8 key' ++ digest c (padded c 0x36#8 key' ++ text')
  · obtain ⟨h2, h3⟩ := List.append_inj h1 (by rw [padded_length, padded_length])
    by_cases h4 : padded c 0x36#8 key ++ text = padded c 0x36#8 key' ++ text'
    · exact Or.inl ⟨(List.append_inj h4 (by rw [padded_length, padded_length])).2, padded_inj c _ _ _ _ h2⟩
    · exact Or.inr (Or.inl ⟨h4, h3⟩)
  · exact Or.inr (Or.inr ⟨h1, h⟩)

/-- A case that meets the hypotheses of `C118_hmac`. -/
example := C118_hmac .sha2_256 [1#8] [2#8] [1#8] [2#8, 0#8] (by decide) (by decide) (by
  rw [Model.hmac, Model.hmac]; rfl)

/-! ### PKCS#1 v1.5 -/

theorem accepted_pkcs1 {N : Nat} {k : RsaPub} {c : HashClass} {data sig : List Byte} (hd : data.length < 2 ^ 24) (hs : sig.length < 2 ^ 63)
    (h : validatePkcs1 N k c data sig = .ok true) : ∃ r, rsaep N k (bnOfBytes N sig) = .ok r ∧ (asn1Id c).length + hashsize c < sig.length ∧
      bnEq (bnOfBytes N ([0#8, 1#8] ++ List.replicate (sig.length - ((asn1Id c).length + hashsize c) - 3) 0xFF#8 ++ [0#8] ++
        (asn1Id c ++ digest c (tlv 0x30#8 data))).reverse) r = true := by
  rw [validatePkcs1, pkcs1_spec c data _ hd hs] at h
  split at h
  · exact nomatch h
  · rename_i hl
    rw [ok_bind] at h
    cases hr : rsaep N k (bnOfBytes N sig) with
    | error f => rw [hr] at h; exact nomatch h
    | ok r =>
      rw [hr, ok_bind] at h
      exact ⟨r, rfl, by omega, Except.ok.inj h⟩

theorem loop_keeps {σ : Type} (P : Nat → σ → Prop) {body : σ → Nat → Out σ} (hb : ∀ s i s', P i s → body s i = .ok s' → P (i + 1) s') :
    ∀ (n : Nat) (s s' : σ), P 0 s → loop n s body = .ok s' → P n s'
  | 0, _, _, h0, h => Except.ok.inj h ▸ h0
  | n + 1, s, s', h0, h => by
    rw [loop] at h
    obtain ⟨t, h1, h2⟩ := bind_ok h
    exact hb t n s' (loop_keeps P hb n s t h0 h1) h2

theorem wr_keeps {α : Type} {v v' : List α} {i : Nat} {x : α} (h : wr v i x = .ok v') : v' = v.set i x ∧ i < v.length := by
  rw [wr] at h
  split at h
  · exact ⟨(Except.ok.inj h).symm, by assumption⟩
  · exact nomatch h

theorem redc_length {K : Nat} {N Ninv v r : List U32} (hN : N.length = bnN K) (h : redc K N Ninv v = .ok r) : r.length = bnN K := by
  rw [redc] at h
  obtain ⟨v0, _, h⟩ := bind_ok h
  obtain ⟨w, _, h⟩ := bind_ok h
  obtain ⟨m, _, h⟩ := bind_ok h
  obtain ⟨mn, _, h⟩ := bind_ok h
  dsimp only at h
  obtain ⟨t, h5, h⟩ := bind_ok h
  have ht : t.length = bnN K := by
    rw [bnSlice] at h5
    refine loop_keeps (fun _ s => s.length = bnN K) (fun s i s' hs hb => ?_) _ _ _ (by simp) h5
    obtain ⟨w, _, hw⟩ := bind_ok hb
    rw [(wr_keeps hw).1, List.length_set, hs]
  rw [← Except.ok.inj h]
  split
  · rw [bnSub_length _ _ (by rw [ht, hN]), ht]
  · exact ht

theorem rsaep_length {N : Nat} {k : RsaPub} {m r : List U32} (hN : k.s.N.length = bnN N) (h : rsaep N k m = .ok r) : r.length = bnN N := by
  rw [rsaep] at h
  split at h
  all_goals
    obtain ⟨v, _, h⟩ := bind_ok h
    obtain ⟨x, _, h⟩ := bind_ok h
    exact redc_length hN h

theorem tlv_inj {tag : Byte} {a b : List Byte} (h : tlv tag a = tlv tag b) : a = b := by
  have hl := congrArg List.length h
  rw [tlv_length, tlv_length] at hl
  have : a.length = b.length := by
    rcases Nat.lt_trichotomy a.length b.length with h1 | h1 | h1
    · have := hdrLen_mono (Nat.le_of_lt h1); omega
    · exact h1
    · have := hdrLen_mono (Nat.le_of_lt h1); omega
  rw [tlv, tlv, this] at h
  exact List.append_cancel_left (List.cons.inj h).2

theorem low_bytes {N : Nat} {a b x y : List Byte} (hx : x.length = y.length) (hN : x.length ≤ 4 * bnN N)
    (h : bnOfBytes N (a ++ x).reverse = bnOfBytes N (b ++ y).reverse) : x = y := by
  have h1 := congrArg value h
  have tk (u v : List Byte) (hv : v.length ≤ 4 * bnN N) : (u ++ v).reverse.take (4 * bnN N) = v.reverse ++ u.reverse.take (4 * bnN N - v.length) := by
    rw [List.reverse_append, List.take_append, List.take_of_length_le (by simpa using hv), List.length_reverse]
  rw [(bnOfBytes_spec _ _).2, (bnOfBytes_spec _ _).2, tk a x hN, tk b y (hx ▸ hN), leNat_append, leNat_append] at h1
  have e1 : leNat x.reverse < 2 ^ (8 * x.reverse.length) := leNat_lt _
  have e2 : leNat y.reverse < 2 ^ (8 * y.reverse.length) := leNat_lt _
  have el : y.reverse.length = x.reverse.length := by simp [hx]
  rw [el] at h1 e2
  have h2 := congrArg (· % 2 ^ (8 * x.reverse.length)) h1
  simp only [Nat.add_mul_mod_self_left, Nat.mod_eq_of_lt e1, Nat.mod_eq_of_lt e2] at h2
  exact List.reverse_injective (leNat_inj el.symm h2)

theorem tlv_short {data : List Byte} (hd : data.length < 2 ^ 24) : (tlv 0x30#8 data).length < 2 ^ 61 := by
  rw [← pkcs1Prefix_eq _ hd, List.length_append]
  have := pkcs1Prefix_length data.length
  omega

/-- C118 for PKCS#1 v1.5 signatures: if a signature is accepted for two data with the same key and hash, then the data are the same or their encodings as SEQUENCE
are a collision of the hash. Nothing is assumed about the key except the width of its modulus. -/
theorem C118_pkcs1 (N : Nat) (k : RsaPub) (c : HashClass) (data data' sig : List Byte) (hk : k.s.N.length = bnN N) (hN : hashsize c ≤ 4 * bnN N)
    (hd : data.length < 2 ^ 24) (hd' : data'.length < 2 ^ 24) (hs : sig.length < 2 ^ 63)
    (h : validatePkcs1 N k c data sig = .ok true) (h' : validatePkcs1 N k c data' sig = .ok true) :
    data = data' ∨ Collides c (tlv 0x30#8 data) (tlv 0x30#8 data') := by
  obtain ⟨r, hr, _, h1⟩ := accepted_pkcs1 hd hs h
  obtain ⟨r', hr', _, h2⟩ := accepted_pkcs1 hd' hs h'
  rw [hr] at hr'
  rw [← Except.ok.inj hr'] at h2
  have hl := rsaep_length hk hr
  rw [bnEq_iff _ _ (by rw [(bnOfBytes_spec _ _).1, hl])] at h1 h2
  have e3 := h1.trans h2.symm
  rw [← List.append_assoc, ← List.append_assoc] at e3
  have b1 := digest_length c _ (tlv_short hd)
  have e := low_bytes (by rw [b1, digest_length c _ (tlv_short hd')]) (by rwa [b1]) e3
  by_cases h3 : tlv 0x30#8 data = tlv 0x30#8 data'
  · exact Or.inl (tlv_inj h3)
  · exact Or.inr ⟨h3, e⟩

theorem ids_differ {c c' : HashClass} (hc : c ≠ .crc32) (hc' : c' ≠ .crc32) (hn : c ≠ c') : 15 ≤ (asn1Id c).length ∧ 15 ≤ (asn1Id c').length ∧
    (asn1Id c).take 15 ≠ (asn1Id c').take 15 := by
  revert hc hc' hn
  cases c <;> cases c' <;> decide

theorem run_unique {X Y : List Byte} : ∀ a b : Nat, List.replicate a 0xFF#8 ++ 0#8 :: X = List.replicate b 0xFF#8 ++ 0#8 :: Y → X = Y
  | 0, 0, h => (List.cons.inj h).2
  | 0, b + 1, h => absurd (List.cons.inj h).1 (by decide)
  | a + 1, 0, h => absurd (List.cons.inj h).1 (by decide)
  | a + 1, b + 1, h => run_unique a b (List.cons.inj h).2

theorem em_unique {X Y : List Byte} {a b : Nat}
    (h : beNat ([0#8, 1#8] ++ List.replicate a 0xFF#8 ++ [0#8] ++ X) = beNat ([0#8, 1#8] ++ List.replicate b 0xFF#8 ++ [0#8] ++ Y)) : X = Y := by
  have e (a : Nat) (X : List Byte) : [0#8, 1#8] ++ List.replicate a 0xFF#8 ++ [0#8] ++ X = 0#8 :: 1#8 :: (List.replicate a 0xFF#8 ++ 0#8 :: X) := by simp
  rw [e, e] at h
  generalize hx : List.replicate a 0xFF#8 ++ 0#8 :: X = x at h
  generalize hy : List.replicate b 0xFF#8 ++ 0#8 :: Y = y at h
  have one (x : List Byte) : beNat (0#8 :: 1#8 :: x) = 2 ^ (8 * x.length) + beNat x := by
    rw [beNat_cons_zero, beNat_cons, show (1#8).toNat = 1 from rfl, Nat.one_mul]
  rw [one, one] at h
  have hlen : x.length = y.length := by
    have b1 := beNat_lt x
    have b2 := beNat_lt y
    have step (m n : Nat) (hmn : m < n) : 2 * 2 ^ (8 * m) ≤ 2 ^ (8 * n) := by
      rw [← pow_succ']
      exact Nat.pow_le_pow_right (by decide) (by omega)
    rcases Nat.lt_trichotomy x.length y.length with h1 | h1 | h1
    · have := step _ _ h1; omega
    · exact h1
    · have := step _ _ h1; omega
  have hxy : x = y := beNat_inj hlen (by rw [hlen] at h; omega)
  rw [← hx, ← hy] at hxy
  exact run_unique a b hxy

/-- C118 for PKCS#1 v1.5 signatures, different hashes: no signature that fits the key width is accepted under two different hash functions. -/
theorem C118_one_hash (N : Nat) (k : RsaPub) (c c' : HashClass) (data data' sig : List Byte) (hk : k.s.N.length = bnN N) (hN : 86 ≤ 4 * bnN N)
    (hs : sig.length ≤ 4 * bnN N) (hs2 : sig.length < 2 ^ 63) (hd : data.length < 2 ^ 24) (hd' : data'.length < 2 ^ 24) (hc : c ≠ .crc32) (hc' : c' ≠ .crc32)
    (h : validatePkcs1 N k c data sig = .ok true) (h' : validatePkcs1 N k c' data' sig = .ok true) : c = c' := by
  obtain ⟨r, hr, l1, h1⟩ := accepted_pkcs1 hd hs2 h
  obtain ⟨r', hr', l2, h2⟩ := accepted_pkcs1 hd' hs2 h'
  rw [hr] at hr'
  rw [← Except.ok.inj hr'] at h2
  have hl := rsaep_length hk hr
  rw [bnEq_iff _ _ (by rw [(bnOfBytes_spec _ _).1, hl])] at h1 h2
  have e3 := congrArg value (h1.trans h2.symm)
  have len (c : HashClass) (d : List Byte) (hd : d.length = hashsize c) (l : (asn1Id c).length + hashsize c < sig.length) :
      ([0#8, 1#8] ++ List.replicate (sig.length - ((asn1Id c).length + hashsize c) - 3) 0xFF#8 ++ [0#8] ++ (asn1Id c ++ d)).reverse.length ≤ 4 * bnN N := by
    have := asn1Id_length_le c
    have := hashsize_le c
    simp only [List.length_reverse, List.length_append, List.length_replicate, List.length_cons, List.length_nil, hd]
    omega
  have b1 := len c _ (digest_length c _ (tlv_short hd)) l1
  have b2 := len c' _ (digest_length c' _ (tlv_short hd')) l2
  rw [(bnOfBytes_spec _ _).2, (bnOfBytes_spec _ _).2, List.take_of_length_le b1, List.take_of_length_le b2] at e3
  have e4 := em_unique e3
  by_contra hn
  obtain ⟨m1, m2, m3⟩ := ids_differ hc hc' hn
  apply m3
  have := congrArg (List.take 15) e4
  rwa [List.take_append_of_le_length m1, List.take_append_of_le_length m2] at this

/-! ### PSS -/

theorem pss_tail {c : HashClass} {h salt E : List Byte} {n : Nat}
    (hE : generatePss c h salt n = .ok E) :
    ∃ m, E = m ++ hdata c (hadd c (hadd c (hadd c (hnew0 c) (List.replicate 8 0#8)) h) salt) ++ [0xbc#8] ∧ 0 < m.length := by
  rw [generatePss] at hE
  dsimp only at hE
  obtain ⟨d, _, hE⟩ := bind_ok hE
  obtain ⟨a, _, hE⟩ := bind_ok hE
  obtain ⟨d1, e1, hE⟩ := bind_ok hE
  obtain ⟨d2, e2, hE⟩ := bind_ok hE
  refine ⟨d2, (Except.ok.inj hE).symm, ?_⟩
  obtain ⟨e3, e4⟩ := wr_keeps e1
  refine loop_keeps (fun _ s => 0 < s.length) (fun s i s' hs hb => ?_) _ _ _ (by rw [e3, List.length_set]; omega) e2
  obtain ⟨x, _, hb⟩ := bind_ok hb
  obtain ⟨y, _, hb⟩ := bind_ok hb
  rw [(wr_keeps hb).1, List.length_set]
  exact hs

/-- The salt recovered from an encoded message is at most `2^32` bytes long. -/
theorem salt_bound {c : HashClass} {sLen : Nat} {EM salt : List Byte} (h : getSalt c sLen EM = .ok salt) : salt.length ≤ 2 ^ 32 := by
  rw [getSalt] at h
  split at h
  · exact nomatch h
  dsimp only at h
  obtain ⟨d, e1, h⟩ := bind_ok h
  have hd : d.length ≤ 2 ^ 32 := by
    generalize szSub (szSub EM.length (hashsize c)) 1 = L at e1
    rcases Nat.lt_or_ge (2 ^ 32) L with h1 | h1
    · rw [mgf, if_pos (by omega)] at e1
      rw [← Except.ok.inj e1]; simp
    · obtain ⟨m, e2, l2⟩ := mgf_length c ((EM.drop (EM.length - hashsize c - 1)).take (hashsize c)) L h1
      rw [e1] at e2
      rw [Except.ok.inj e2, l2]; exact h1
  have := loop_keeps (fun i (s : List Byte) => s.length = i) (fun s i s' hs hb => by
    obtain ⟨x, _, hb⟩ := bind_ok hb
    obtain ⟨y, _, hb⟩ := bind_ok hb
    rw [← Except.ok.inj hb]; simp [hs]) _ _ _ rfl h
  omega

theorem accepted_pss {N : Nat} {k : RsaPub} {c : HashClass} {sLen : Nat} {m sig : List Byte} (hm : m.length < 2 ^ 61)
    (h : validatePss N k c sLen m sig = .ok true) : ∃ r salt x, rsaep N k (bnOfBytes N sig.reverse) = .ok r ∧
      getSalt c sLen (resize (bnAsBytes r) sig.length).reverse = .ok salt ∧ salt.length ≤ 2 ^ 32 ∧
      (resize (bnAsBytes r) sig.length).reverse = x ++ digest c (List.replicate 8 0#8 ++ digest c m ++ salt) ++ [0xbc#8] := by
  rw [validatePss] at h
  obtain ⟨r, hr, h⟩ := bind_ok h
  obtain ⟨salt, hsalt, h⟩ := bind_ok h
  obtain ⟨E, hE, h⟩ := bind_ok h
  obtain ⟨a, _, h⟩ := bind_ok h
  obtain ⟨F, hF, h⟩ := bind_ok h
  obtain ⟨x, hx, hpos⟩ := pss_tail hE
  have hF2 := (wr_keeps hF).1
  have hsl := salt_bound hsalt
  have e := of_decide_eq_true (Except.ok.inj h)
  refine ⟨r, salt, x.set 0 (a &&& 0x7F#8), hr, hsalt, hsl, ?_⟩
  rw [e, hF2, hx, hash_three _ _ _ _ (by rw [hashOf_length]; have := hashsize_le c; simp; omega), hashOf_eq c m hm, List.append_assoc, List.set_append_left _ _ hpos,
    List.append_assoc, List.append_assoc (x.set 0 _)]

/-- C118 for PSS signatures: if a signature is accepted for two messages with the same key and hash, then the messages are the same or collide, or the two strings hashed
last, with the salt recovered from the signature, collide. -/
theorem C118_pss (N : Nat) (k : RsaPub) (c : HashClass) (sLen : Nat) (m m' sig : List Byte) (hm : m.length < 2 ^ 61) (hm' : m'.length < 2 ^ 61)
    (h : validatePss N k c sLen m sig = .ok true) (h' : validatePss N k c sLen m' sig = .ok true) :
    m = m' ∨ Collides c m m' ∨ ∃ r salt, rsaep N k (bnOfBytes N sig.reverse) = .ok r ∧ getSalt c sLen (resize (bnAsBytes r) sig.length).reverse = .ok salt ∧
      Collides c (List.replicate 8 0#8 ++ digest c m ++ salt) (List.replicate 8 0#8 ++ digest c m' ++ salt) := by
  obtain ⟨r, salt, x, hr, hsalt, hsl, e⟩ := accepted_pss hm h
  obtain ⟨r', salt', x', hr', hsalt', _, e'⟩ := accepted_pss hm' h'
  rw [hr] at hr'
  obtain rfl := Except.ok.inj hr'
  rw [hsalt] at hsalt'
  obtain rfl := Except.ok.inj hsalt'
  have hlen (m : List Byte) (hm : m.length < 2 ^ 61) : (digest c (List.replicate 8 0#8 ++ digest c m ++ salt)).length = hashsize c := by
    apply digest_length
    have := hashsize_le c
    rw [List.length_append, List.length_append, digest_length c m hm, List.length_replicate]
    omega
  have e2 := e.symm.trans e'
  have e3 := (List.append_inj' e2 rfl).1
  have e4 := (List.append_inj' e3 (by rw [hlen m hm, hlen m' hm'])).2
  by_cases h1 : List.replicate 8 0#8 ++ digest c m ++ salt = List.replicate 8 0#8 ++ digest c m' ++ salt
  · have h2 := List.append_cancel_left (List.append_cancel_right h1)
    by_cases h3 : m = m'
    · exact .inl h3
    · exact .inr (.inl ⟨h3, h2⟩)
  · exact .inr (.inr ⟨r, salt, hr, hsalt, h1, e4⟩)

/-! ### certificates -/

theorem scheme_hash {k : RsaPub} {oid data sig : List Byte} (h : validateSignature k (schemeOf oid) data sig = .ok true) :
    ∃ hash alg, rsaSignatureAlgorithm hash = some alg ∧ oid = oidContent alg ∧ validatePkcs1 4096 k hash data sig = .ok true := by
  rw [validateSignature_scheme] at h
  split at h
  · rename_i e; exact ⟨.sha2_256, _, rfl, e, h⟩
  split at h
  · rename_i e; exact ⟨.sha2_384, _, rfl, e, h⟩
  split at h
  · rename_i e; exact ⟨.sha2_512, _, rfl, e, h⟩
  · exact absurd (Except.ok.inj h) (by decide)

theorem tbs_le (tbs oid par sig : List Byte) : tbs.length ≤ (simpleCert tbs oid par sig).length := by
  have h0 := le_tlv 0x30#8 (tlv 0x30#8 tbs ++ (tlv 0x30#8 (tlv 0x06#8 oid ++ par) ++ tlv 0x03#8 (0x00#8 :: sig)))
  have h1 := le_tlv 0x30#8 tbs
  rw [List.length_append] at h0
  rw [simpleCert]
  omega

/-- C118 for certificates: if two certificates with the same signature are both accepted under the key of one issuer, then they have the same signed part and the same
algorithm, or the signed parts are a collision of SHA-256, SHA-384 or SHA-512. -/
theorem C118_certificates (c c' i : Cert) (k : RsaPub) (tbs oid par tbs' oid' par' sig : List Byte) (hk : i.pubkey = some k) (hkl : k.s.N.length = 128)
    (hc : c.derCert = simpleCert tbs oid par sig) (hc' : c'.derCert = simpleCert tbs' oid' par' sig)
    (hl : c.derCert.length < 2 ^ 24) (hl' : c'.derCert.length < 2 ^ 24) (hs : sig.length ≤ 512)
    (h : c.verify i = .ok true) (h' : c'.verify i = .ok true) :
    oid = oid' ∧ (tbs = tbs' ∨ ∃ hash, rsaSignatureAlgorithm hash ≠ none ∧ Collides hash (tlv 0x30#8 tbs) (tlv 0x30#8 tbs')) := by
  rw [verify_nested_iff] at h h'
  split at h
  swap
  · exact absurd (Except.ok.inj h) (by decide)
  split at h'
  swap
  · exact absurd (Except.ok.inj h') (by decide)
  rw [hc] at h hl
  rw [hc'] at h' hl'
  have d1 := tbs_le tbs oid par sig
  have d2 := tbs_le tbs' oid' par' sig
  rw [hk, simpleCert, verifySignature_der _ _ _ _ _ _ _ (by rw [← simpleCert]; omega)] at h h'
  obtain ⟨hash, alg, a1, a2, a3⟩ := scheme_hash h
  obtain ⟨hash', alg', b1, b2, b3⟩ := scheme_hash h'
  have hb : bnN 4096 = 128 := by decide
  have hs2 : sig.reverse.length ≤ 4 * bnN 4096 := by rw [hb, List.length_reverse]; exact hs
  have ne {x : HashClass} {y : List Nat} (hx : rsaSignatureAlgorithm x = some y) : x ≠ .crc32 := by rintro rfl; exact nomatch hx
  obtain rfl := C118_one_hash 4096 k hash hash' tbs tbs' sig.reverse (by rw [hkl, hb]) (by rw [hb]; decide) hs2 (by rw [hb] at hs2; omega) (by omega) (by omega) (ne a1) (ne b1) a3 b3
  rw [a1] at b1
  refine ⟨by rw [a2, b2, Option.some.inj b1], ?_⟩
  have hsz := hashsize_le hash
  rcases C118_pkcs1 4096 k hash tbs tbs' sig.reverse (by rw [hkl, hb]) (by rw [hb]; omega) (by omega) (by omega) (by rw [hb] at hs2; omega) a3 b3 with e | e
  · exact .inl e
  · exact .inr ⟨hash, by rw [a1]; exact nofun, e⟩

/-- Every key made by the constructor has the width asked for. -/
theorem key_width {N : Nat} {n e : List U32} {k : RsaPub} (hn : n.length = bnN N) (h : rsaPubNew N n e = .ok k) : k.s.N.length = bnN N := by
  rw [rsaPubNew] at h
  obtain ⟨s, hs, h⟩ := bind_ok h
  rw [← Except.ok.inj h]
  rw [montNew] at hs
  obtain ⟨_, _, hs⟩ := bind_ok hs
  dsimp only at hs
  obtain ⟨_, _, hs⟩ := bind_ok hs
  obtain ⟨_, _, hs⟩ := bind_ok hs
  obtain ⟨_, _, hs⟩ := bind_ok hs
  obtain ⟨_, _, hs⟩ := bind_ok hs
  obtain ⟨_, _, hs⟩ := bind_ok hs
  rw [← Except.ok.inj hs]
  exact hn

/-! ### cases that meet the hypotheses -/

/-- Two keys that give the same MACs. -/
example (c : HashClass) (text : List Byte) (ht : text.length < 2 ^ 60) : Model.hmac c text [1#8] = Model.hmac c text [1#8, 0#8] := by
  rw [hmac_digest c _ _ ht, hmac_digest c _ _ ht]
  have e (p : Byte) : padded c p [1#8] = padded c p [1#8, 0#8] := by
    rw [padded, padded]
    cases c <;> rfl
  rw [e, e]

/-- Two different certificates with the same signature that are accepted; they differ in the parameters of the algorithm. Their data and signature also meet the hypotheses
of `C118_pkcs1` and `C118_one_hash`. -/
example : ∃ (c c' i : Cert) (k : RsaPub) (tbs oid par par' sig : List Byte), par ≠ par' ∧ i.pubkey = some k ∧ k.s.N.length = 128 ∧ c.derCert = simpleCert tbs oid par sig ∧
    c'.derCert = simpleCert tbs oid par' sig ∧ c.derCert.length < 2 ^ 24 ∧ c'.derCert.length < 2 ^ 24 ∧ sig.length ≤ 512 ∧ c.verify i = .ok true ∧ c'.verify i = .ok true ∧
    validatePkcs1 4096 k .sha2_256 tbs sig.reverse = .ok true := by
  obtain ⟨k, hk, hn, he⟩ := key62
  have h1 := verify62 [] k hk hn he { derCert := wGood } (wGood_eval k)
  refine ⟨{ derCert := wGood }, { derCert := simpleCert [] (oidContent sha256Rsa) [] (sigOctets (2 ^ 29) 62) }, anyIssuer [] k, k, [], oidContent sha256Rsa, tlv 0x05#8 [], [],
    sigOctets (2 ^ 29) 62, by decide, rfl, (key_width (N := 4096) hk.ln hk.made), rfl, rfl, by decide +kernel, by decide +kernel, by decide +kernel, h1, ?_, ?_⟩
  · refine verify62 [] k hk hn he _ ?_
    exact verifySignature_der [] (oidContent sha256Rsa) [] (sigOctets (2 ^ 29) 62) 0x06#8 0x00#8 (some k) (by decide +kernel)
  · rw [verify_nested_iff] at h1
    split at h1
    swap
    · exact absurd (Except.ok.inj h1) (by decide)
    rw [show verifySignature wGood (anyIssuer [] k).pubkey = _ from wGood_eval k] at h1
    obtain ⟨hash, alg, a1, a2, a3⟩ := scheme_hash h1
    obtain rfl := hash_of_alg a1 a2
    exact a3

/-- A PSS signature with CRC-32 accepted for two different messages of the same length. -/
example : ∃ (k : RsaPub) (m m' sig : List Byte), m ≠ m' ∧ m.length < 2 ^ 61 ∧ m'.length < 2 ^ 61 ∧ validatePss (32 * 21) k .crc32 4 m sig = .ok true ∧
    validatePss (32 * 21) k .crc32 4 m' sig = .ok true := by
  have hn : value demoN = (2 ^ 127 - 1) * (2 ^ 521 - 1) := by decide +kernel
  have h1 : value demoOne = 1 := by decide +kernel
  have hnl : demoN.length = 21 := by decide +kernel
  have h1l : demoOne.length = 21 := by decide +kernel
  have hv : ValidPair (value demoN) (value demoOne) (value demoOne) := by rw [hn, h1]; exact demo_pair
  obtain ⟨a, ha, hb⟩ := C110_second [0#8, 0#8, 0#8, 0#8, 0#8] [1#8] rfl
  obtain ⟨sig, _, _, hx⟩ := C36_sign_verify 21 demoN demoOne demoOne .crc32 [0#8, 0#8, 0#8, 0#8, 0#8] (List.replicate 4 0#8) 81 (by decide) hnl h1l h1l hv
    (by rw [hn]; decide +kernel) (by rw [hn]; decide +kernel) rfl (by decide) (by decide) (by decide)
  obtain ⟨k, _, hx⟩ := bind_ok hx
  refine ⟨k, _, [1#8] ++ a, sig, fun h => absurd (List.cons.inj h).1 (by decide), by decide, by rw [ha]; decide, hx, ?_⟩
  have e : hashOf .crc32 ([1#8] ++ a) = hashOf .crc32 [0#8, 0#8, 0#8, 0#8, 0#8] := hb
  rw [validatePss, e]
  exact hx

end Verif.Props
