import Verif.Proof.Hkdf

/-! C65 - C68, C87: HMAC, HKDF and the TLS 1.3 key schedule (include/caligo/hkdf.h). -/

namespace Verif.Props

open Verif.Model Verif.Proof Verif.Proof.Hk

/-! ### C65 -/

/-- C65 in full: for every cryptographic hash class. -/
def C65_claim : Prop := ∀ (c : HashClass) (text key : List Byte), c ≠ .crc32 → text.length < 2 ^ 60 → key.length < 2 ^ 60 →
  hmac c text key = Spec.hmac c key text

/-- C65 for SHA-256 and SHA-512, the hashes whose block is twice the digest, and keys of at most one block.
Missing: longer keys and the other hashes, for which the claim is false. -/
theorem C65_partial (c : HashClass) (hc : c = .sha2_256 ∨ c = .sha2_512) (text key : List Byte) (hk : key.length ≤ Spec.blockLength c)
    (ht : text.length < 2 ^ 60) : hmac c text key = Spec.hmac c key text := by
  refine hmac_standard ?_ text key hk ht
  rcases hc with rfl | rfl <;> rfl

example : (List.replicate 64 3#8).length ≤ Spec.blockLength .sha2_256 ∧ (ascii "what do ya want for nothing?").length < 2 ^ 60 := by decide +kernel

/-- What the library computes for every class and key: RFC 2104 with a block of twice the digest and the key cut off after that many bytes. -/
theorem C65_exact (c : HashClass) (text key : List Byte) (ht : text.length < 2 ^ 60) :
    hmac c text key = Spec.rfc2104 (Spec.digest c) (2 * Spec.digestLength c) (key.take (2 * Spec.digestLength c)) text := by
  have hs : hashsize c ≤ 64 := by cases c <;> decide
  rw [← hashsize_eq]
  have hr : resizeTo key (hashsize c * 2) =
      key.take (2 * hashsize c) ++ List.replicate (2 * hashsize c - (key.take (2 * hashsize c)).length) 0x00#8 := by
    unfold resizeTo
    rw [Nat.mul_comm, List.length_take]
    congr 2
    omega
  have hl : (key.take (2 * hashsize c) ++ List.replicate (2 * hashsize c - (key.take (2 * hashsize c)).length) 0x00#8).length = 2 * hashsize c := by
    simp only [List.length_append, List.length_replicate, List.length_take]; omega
  unfold hmac Spec.rfc2104
  rw [hr, if_neg (by rw [List.length_take]; omega)]
  simp only
  rw [hashOf_eq c (_ ++ hashOf c _) (by simp only [List.length_append, List.length_map, hl, hashOf_length]; omega),
    hashOf_eq c (_ ++ text) (by simp only [List.length_append, List.length_map, hl]; omega)]

example : (ascii "text").length < 2 ^ 60 := by decide

/-- Two keys that agree in the first `2 * hashsize` bytes authenticate every text alike: the rest of a long key is ignored. -/
theorem C65_long_keys_truncated (c : HashClass) (text key key' : List Byte) (hk : 2 * hashsize c ≤ key.length) (hk' : 2 * hashsize c ≤ key'.length)
    (h : key.take (2 * hashsize c) = key'.take (2 * hashsize c)) : hmac c text key = hmac c text key' := by
  have hr : resizeTo key (hashsize c * 2) = resizeTo key' (hashsize c * 2) := by
    unfold resizeTo
    rw [Nat.mul_comm, h, Nat.sub_eq_zero_of_le hk, Nat.sub_eq_zero_of_le hk']
  unfold hmac
  rw [hr]

/-- Two different keys that meet the hypotheses. -/
example : ∃ key key' : List Byte, key ≠ key' ∧ 2 * hashsize .sha2_256 ≤ key.length ∧ 2 * hashsize .sha2_256 ≤ key'.length ∧
    key.take (2 * hashsize .sha2_256) = key'.take (2 * hashsize .sha2_256) :=
  ⟨List.replicate 64 5#8 ++ ascii "alice", List.replicate 64 5#8 ++ ascii "bob", by decide +kernel, by decide +kernel, by decide +kernel, by decide +kernel⟩

/-- The standard HMAC of short inputs, computed with the modelled hash. -/
theorem spec_hmac_eval (c : HashClass) (key text : List Byte) (hk : key.length < 2 ^ 60) (ht : text.length < 2 ^ 60) :
    Spec.hmac c key text = Spec.rfc2104 (hashOf c) (Spec.blockLength c) key text := by
  have hs : hashsize c ≤ 64 := by cases c <;> decide
  have hB : Spec.blockLength c ≤ 144 := by cases c <;> decide
  have hK : (if key.length > Spec.blockLength c then Spec.digest c key else key) = (if key.length > Spec.blockLength c then hashOf c key else key) := by
    rw [hashOf_eq c key (by omega)]
  have hKl : (if key.length > Spec.blockLength c then hashOf c key else key).length ≤ 144 := by
    split
    · rw [hashOf_length]; omega
    · omega
  unfold Spec.hmac Spec.rfc2104
  rw [hK]
  simp only
  generalize (if key.length > Spec.blockLength c then hashOf c key else key) = K at hKl
  rw [hashOf_eq c (_ ++ hashOf c _) (by
      simp only [List.length_append, List.length_map, List.length_replicate, hashOf_length]; omega),
    hashOf_eq c (_ ++ text) (by simp only [List.length_append, List.length_map, List.length_replicate]; omega)]

/-! ### C66 -/

/-- The library's HMAC with the arguments in the order of the RFC. -/
abbrev libMac (c : HashClass) (key text : List Byte) : List Byte := hmac c text key

/-- C66 in full: HKDF-Expand over the library's HMAC; lengths that RFC 5869 does not allow are rejected by an exception. -/
def C66_claim : Prop := ∀ (c : HashClass) (prk info : List Byte) (len : Nat),
  hkdfExpand c prk info len = match Spec.hkdfExpand (libMac c) (Spec.digestLength c) prk info len with
    | some okm => .ok okm
    | none => .error .thrown

/-- C66 within the limit of RFC 5869, for every hash class. Missing: the rejection of longer requests. -/
theorem C66_partial (c : HashClass) (prk info : List Byte) (len : Nat) (hlen : len ≤ 255 * Spec.digestLength c) :
    ∃ okm, Spec.hkdfExpand (libMac c) (Spec.digestLength c) prk info len = some okm ∧ hkdfExpand c prk info len = .ok okm ∧ okm.length = len := by
  rw [← hashsize_eq] at hlen ⊢
  have hp := hashsize_pos c
  unfold Spec.hkdfExpand
  rw [if_pos hlen, expand_eq]
  refine ⟨_, rfl, rfl, ?_⟩
  rw [List.length_take, flat_length]
  have h1 := Nat.div_add_mod (len + hashsize c - 1) (hashsize c)
  have h2 := Nat.mod_lt (len + hashsize c - 1) hp
  rw [Nat.mul_comm] at h1
  omega

example : (82 : Nat) ≤ 255 * Spec.digestLength .sha2_256 := by decide

/-- HKDF-Extract is the library's HMAC keyed with the salt. -/
theorem C66_extract (c : HashClass) (salt ikm : List Byte) : hkdfExtract c salt ikm = Spec.hkdfExtract (libMac c) salt ikm := rfl

/-- C66 against the standards alone: with SHA-256 or SHA-512 and a pseudo-random key of at most one block, HKDF-Expand is the one of RFC 5869
over RFC 2104. -/
theorem C66_standard (c : HashClass) (hc : c = .sha2_256 ∨ c = .sha2_512) (prk info : List Byte) (len : Nat)
    (hk : prk.length ≤ Spec.blockLength c) (hi : info.length < 2 ^ 59) (hlen : len ≤ 255 * Spec.digestLength c) :
    ∃ okm, Spec.hkdfExpand (Spec.hmac c) (Spec.digestLength c) prk info len = some okm ∧ hkdfExpand c prk info len = .ok okm ∧ okm.length = len := by
  obtain ⟨okm, h1, h2, h3⟩ := C66_partial c prk info len hlen
  refine ⟨okm, ?_, h2, h3⟩
  rw [← h1, ← hashsize_eq]
  exact (expand_standard (by rcases hc with rfl | rfl <;> rfl) prk info hk hi len).symm

example : (unhex "077709362c2e32df0ddc3f0dc47bba6390b6c73bb50f9c3122ec844ad7c2b3e5").length ≤ Spec.blockLength .sha2_256 ∧
    (unhex "f0f1f2f3f4f5f6f7f8f9").length < 2 ^ 59 ∧ 42 ≤ 255 * Spec.digestLength .sha2_256 := by decide +kernel

/-- Any two requests, within the limit or not, return the requested numbers of bytes, and the shorter output is a prefix of the longer one. -/
theorem C66_prefix (c : HashClass) (prk info : List Byte) (m n : Nat) (h : m ≤ n) :
    ∃ a b, hkdfExpand c prk info m = .ok a ∧ hkdfExpand c prk info n = .ok b ∧ a.length = m ∧ b.length = n ∧ a = b.take m := by
  have hp := hashsize_pos c
  have hle : ∀ n, n ≤ (n + hashsize c - 1) / hashsize c * hashsize c := by
    intro n
    have h1 := Nat.div_add_mod (n + hashsize c - 1) (hashsize c)
    have h2 := Nat.mod_lt (n + hashsize c - 1) hp
    rw [Nat.mul_comm] at h1
    omega
  refine ⟨_, _, expand_eq c prk info m, expand_eq c prk info n, ?_, ?_, ?_⟩
  · rw [List.length_take, flat_length]; exact Nat.min_eq_left (hle m)
  · rw [List.length_take, flat_length]; exact Nat.min_eq_left (hle n)
  · rw [List.take_take, Nat.min_eq_left h]
    have hN : (m + hashsize c - 1) / hashsize c ≤ (n + hashsize c - 1) / hashsize c := Nat.div_le_div_right (by omega)
    obtain ⟨d, hd⟩ := Nat.exists_eq_add_of_le hN
    rw [hd, List.range_add, List.flatMap_append, List.take_append_of_le_length]
    rw [flat_length]; exact hle m

example : (10 : Nat) ≤ 8192 := by decide

/-- A request beyond the limit is answered instead of rejected. -/
theorem C66_false : ¬ C66_claim := by
  intro h
  have h1 := h .sha2_256 [] [] 8161
  have h2 : Spec.hkdfExpand (libMac .sha2_256) (Spec.digestLength .sha2_256) [] [] 8161 = none := by
    unfold Spec.hkdfExpand
    rw [if_neg (by decide)]
  rw [h2, expand_eq] at h1
  exact nomatch h1

/-! ### C67 -/

/-- C67, encoding: whenever RFC 8446 defines the structure, the info string is its encoding. -/
theorem C67_encoding (label context : List Byte) (len : Nat) (h1 : 1 ≤ label.length) (h2 : label.length ≤ 249) (h3 : context.length ≤ 255)
    (h4 : len < 2 ^ 16) : Spec.hkdfLabel len label context = some (hkdfLabel label context len) := by
  have h6 : (ascii "tls13 ").length = 6 := by decide
  obtain ⟨i, hi⟩ : ∃ i, Spec.hkdfLabel len label context = some i := by
    unfold Spec.hkdfLabel
    simp only [List.length_append, h6]
    rw [if_pos ⟨h4, by omega, by omega, h3⟩]
    exact ⟨_, rfl⟩
  rw [(label_some hi).1, hi]

/-- A case that meets the hypotheses of `C67_encoding`. -/
example := C67_encoding (ascii "key") [1#8, 2#8] 16 (by decide) (by decide) (by decide) (by decide)

/-- C67: the whole function, for every hash class. -/
theorem C67_expand_label (c : HashClass) (prk label context : List Byte) (len : Nat) (h1 : 1 ≤ label.length) (h2 : label.length ≤ 249)
    (h3 : context.length ≤ 255) (h4 : len < 2 ^ 16) (h5 : len ≤ 255 * Spec.digestLength c) :
    ∃ r, Spec.expandLabel (libMac c) (Spec.digestLength c) prk label context len = some r ∧ hkdfExpandLabel c prk label context len = .ok r ∧
      r.length = len := by
  rw [← hashsize_eq] at h5 ⊢
  obtain ⟨r, hr⟩ := expandLabel_defined (libMac c) (hashsize c) prk label context len h1 h2 h3 h4 h5
  exact ⟨r, hr, expandLabel_some hr, expandLabel_length hr⟩

/-- A case that meets the hypotheses of `C67_expand_label`. -/
example := C67_expand_label .sha2_256 (List.replicate 32 3#8) (ascii "key") [1#8, 2#8] 16 (by decide) (by decide) (by decide) (by decide) (by decide)

/-- C67, injectivity: distinct triples within the limits have distinct info strings. -/
theorem C67_injective (label context label' context' : List Byte) (len len' : Nat) (h1 : label.length ≤ 249) (h1' : label'.length ≤ 249)
    (h4 : len < 2 ^ 16) (h4' : len' < 2 ^ 16) (h : hkdfLabel label context len = hkdfLabel label' context' len') :
    label = label' ∧ context = context' ∧ len = len' := by
  have h6 : (ascii "tls13 ").length = 6 := by decide
  unfold hkdfLabel at h
  simp only [List.cons_append, List.nil_append, List.append_assoc, List.cons.injEq] at h
  obtain ⟨e1, e2, e3, e4⟩ := h
  have a1 := congrArg BitVec.toNat e1
  have a2 := congrArg BitVec.toNat e2
  have a3 := congrArg BitVec.toNat e3
  rw [show (0xFF : Nat) = 2 ^ 8 - 1 from rfl] at a1 a2
  simp only [BitVec.toNat_ofNat, Nat.and_two_pow_sub_one_eq_mod, Nat.shiftRight_eq_div_pow] at a1 a2
  simp only [BitVec.toNat_ofNat, List.length_append, h6] at a3
  have hl : label.length = label'.length := by omega
  have e5 := List.append_cancel_left e4
  have e6 := List.append_inj e5 hl
  exact ⟨e6.1, (List.cons.inj e6.2).2, by omega⟩

example : hkdfLabel (ascii "key") [] 16 = unhex "00100974" ++ unhex "6c733133206b657900" := by decide +kernel
example : 1 ≤ (ascii "c hs traffic").length ∧ (ascii "c hs traffic").length ≤ 249 ∧ (List.replicate 48 1#8).length ≤ 255 ∧ 48 < 2 ^ 16 ∧
    48 ≤ 255 * Spec.digestLength .sha2_384 := by decide +kernel

/-- The limits matter: a label of 250 bytes and a length of `2^16` are encoded like other requests. -/
theorem C67_limits_needed : (∃ label context label' context' : List Byte, (label, context) ≠ (label', context') ∧
      hkdfLabel label context 32 = hkdfLabel label' context' 32) ∧
    ∃ len len', len ≠ len' ∧ hkdfLabel (ascii "key") [] len = hkdfLabel (ascii "key") [] len' := by
  refine ⟨⟨List.replicate 256 0#8, [], List.replicate 0 0#8, List.replicate 256 0#8, ?_, ?_⟩, 16, 16 + 2 ^ 16, by decide, by decide +kernel⟩
  · intro h; exact absurd (congrArg (fun p : List Byte × List Byte => p.2.length) h) (by show ¬ (0 = (List.replicate 256 0#8).length); rw [List.length_replicate]; decide)
  · decide +kernel

/-! ### C68 -/

/-- C68, traffic secrets: for every class, secret and transcript hash of at most 255 bytes. -/
theorem C68_traffic_secret (c : HashClass) (secret th : List Byte) (hth : th.length ≤ 255) (client handshake : Bool) (t : Spec.Traffic)
    (ht : t = match client, handshake with
      | true, true => .clientHandshake | true, false => .clientApplication
      | false, true => .serverHandshake | false, false => .serverApplication) :
    ∃ ts, Spec.trafficSecret (libMac c) (Spec.digestLength c) t secret th = some ts ∧ getTrafficSecret c secret th client handshake = .ok ts ∧
      ts.length = Spec.digestLength c := by
  have hs : Spec.digestLength c ≤ 64 := by cases c <;> decide
  have e : getTrafficSecret c secret th client handshake = hkdfExpandLabel c secret t.label th (Spec.digestLength c) := by
    rw [← hashsize_eq]
    cases client <;> cases handshake <;> subst ht <;> rfl
  rw [e]
  have hl : t.label.length = 12 := by cases t <;> decide
  exact C67_expand_label c secret t.label th _ (by omega) (by omega) hth (by omega) (by omega)

/-- A case that meets the hypotheses of `C68_traffic_secret`. -/
example := C68_traffic_secret .sha2_256 (List.replicate 32 3#8) (List.replicate 32 4#8) (by decide) true false _ rfl

/-- C68, write keys. -/
theorem C68_key_iv (c : HashClass) (keysize ivsize : Nat) (hk : keysize ≤ 255 * Spec.digestLength c) (hi : ivsize ≤ 255 * Spec.digestLength c)
    (secret th : List Byte) (hth : th.length ≤ 255) (client handshake : Bool) (t : Spec.Traffic)
    (ht : t = match client, handshake with
      | true, true => .clientHandshake | true, false => .clientApplication
      | false, true => .serverHandshake | false, false => .serverApplication) :
    ∃ ts key iv, Spec.trafficSecret (libMac c) (Spec.digestLength c) t secret th = some ts ∧
      Spec.trafficKeys (libMac c) (Spec.digestLength c) keysize ivsize ts = some (key, iv) ∧
      getKeyIv c keysize ivsize secret th client handshake = .ok (key, iv) ∧ key.length = keysize ∧ iv.length = ivsize := by
  have hs : Spec.digestLength c ≤ 64 := by cases c <;> decide
  obtain ⟨ts, s1, m1, _⟩ := C68_traffic_secret c secret th hth client handshake t ht
  obtain ⟨key, s2, m2, l2⟩ := C67_expand_label c ts (ascii "key") [] keysize (by decide) (by decide) (by simp) (by omega) hk
  obtain ⟨iv, s3, m3, l3⟩ := C67_expand_label c ts (ascii "iv") [] ivsize (by decide) (by decide) (by simp) (by omega) hi
  refine ⟨ts, key, iv, s1, ?_, ?_, l2, l3⟩
  · unfold Spec.trafficKeys; rw [s2, s3]; rfl
  · unfold getKeyIv; rw [m1, loop_ok_bind, m2, loop_ok_bind, m3]; rfl

/-- A case that meets the hypotheses of `C68_key_iv`. -/
example := C68_key_iv .sha2_256 16 12 (by decide) (by decide) (List.replicate 32 3#8) (List.replicate 32 4#8) (by decide) true false _ rfl

/-- C68, key of the Finished message. -/
theorem C68_finished (c : HashClass) (secret th : List Byte) (hth : th.length ≤ 255) (client : Bool) :
    ∃ ts fk, Spec.trafficSecret (libMac c) (Spec.digestLength c) (if client then .clientHandshake else .serverHandshake) secret th = some ts ∧
      Spec.finishedKey (libMac c) (Spec.digestLength c) ts = some fk ∧ getFinishedKey c secret th client = .ok fk ∧ fk.length = Spec.digestLength c := by
  have hs : Spec.digestLength c ≤ 64 := by cases c <;> decide
  obtain ⟨ts, s1, m1, _⟩ := C68_traffic_secret c secret th hth client true (if client then .clientHandshake else .serverHandshake) (by cases client <;> rfl)
  obtain ⟨fk, s2, m2, l2⟩ := C67_expand_label c ts (ascii "finished") [] (Spec.digestLength c) (by decide) (by decide) (by simp) (by omega) (by omega)
  refine ⟨ts, fk, s1, s2, ?_, l2⟩
  unfold getFinishedKey
  rw [m1, loop_ok_bind, hashsize_eq, m2]

/-- A case that meets the hypotheses of `C68_finished`. -/
example := C68_finished .sha2_256 (List.replicate 32 3#8) (List.replicate 32 4#8) (by decide) false

/-- C68, handshake secret. -/
theorem C68_handshake_secret (c : HashClass) (shared : List Byte) :
    ∃ hs, Spec.handshakeSecret (libMac c) (Spec.digestLength c) (Spec.digest c []) shared = some hs ∧ hkdfHandshakeSecret c shared = .ok hs ∧
      hs.length = Spec.digestLength c := by
  have hs : Spec.digestLength c ≤ 64 := by cases c <;> decide
  have hz : resizeTo [] (hashsize c) = Spec.zeros (Spec.digestLength c) := by simp [resizeTo, Spec.zeros, hashsize_eq]
  obtain ⟨d, s1, m1, _⟩ := C67_expand_label c (Spec.earlySecret (libMac c) (Spec.digestLength c)) (ascii "derived") (Spec.digest c []) (Spec.digestLength c)
    (by decide) (by decide) (by rw [digest_empty_length, hashsize_eq]; omega) (by omega) (by omega)
  refine ⟨hmac c shared d, ?_, ?_, by rw [hmac_length, hashsize_eq]⟩
  · unfold Spec.handshakeSecret Spec.deriveSecret; rw [s1]; rfl
  · unfold hkdfHandshakeSecret
    rw [hz, digest_empty, hashsize_eq]
    show (hkdfExpandLabel c (Spec.earlySecret (libMac c) (Spec.digestLength c)) (ascii "derived") (Spec.digest c []) (Spec.digestLength c) >>= _) = _
    rw [m1]; rfl

/-- C68, master secret. -/
theorem C68_master_secret (c : HashClass) (hs : List Byte) :
    ∃ ms, Spec.masterSecret (libMac c) (Spec.digestLength c) (Spec.digest c []) hs = some ms ∧ hkdfMasterSecret c hs = .ok ms ∧
      ms.length = Spec.digestLength c := by
  have h64 : Spec.digestLength c ≤ 64 := by cases c <;> decide
  have hz : resizeTo [] (hashsize c) = Spec.zeros (Spec.digestLength c) := by simp [resizeTo, Spec.zeros, hashsize_eq]
  obtain ⟨d, s1, m1, _⟩ := C67_expand_label c hs (ascii "derived") (Spec.digest c []) (Spec.digestLength c)
    (by decide) (by decide) (by rw [digest_empty_length, hashsize_eq]; omega) (by omega) (by omega)
  refine ⟨hmac c (Spec.zeros (Spec.digestLength c)) d, ?_, ?_, by rw [hmac_length, hashsize_eq]⟩
  · unfold Spec.masterSecret Spec.deriveSecret; rw [s1]; rfl
  · unfold hkdfMasterSecret
    rw [hz, digest_empty, hashsize_eq]
    show (hkdfExpandLabel c hs (ascii "derived") (Spec.digest c []) (Spec.digestLength c) >>= _) = _
    rw [m1]; rfl

/-- C68, separation: the info strings of different traffic secrets differ, whatever the transcript hashes, and none of them is an info string
of "derived", "key", "iv" or "finished". -/
theorem C68_separation (t t' : Spec.Traffic) (th th' : List Byte) (len len' : Nat) (hl : len < 2 ^ 16) (hl' : len' < 2 ^ 16) :
    (t ≠ t' → hkdfLabel t.label th len ≠ hkdfLabel t'.label th' len') ∧
    ∀ l ∈ [ascii "derived", ascii "key", ascii "iv", ascii "finished"], hkdfLabel t.label th len ≠ hkdfLabel l th' len' := by
  have h1 : ∀ t : Spec.Traffic, t.label.length ≤ 249 := by intro t; cases t <;> decide
  refine ⟨fun hne h => ?_, fun l hm h => ?_⟩
  · have := (C67_injective _ _ _ _ _ _ (h1 t) (h1 t') hl hl' h).1
    revert hne this
    cases t <;> cases t' <;> decide
  · have hl2 : l.length ≤ 249 := by
      simp only [List.mem_cons, List.not_mem_nil, or_false] at hm
      rcases hm with rfl | rfl | rfl | rfl <;> decide
    have := (C67_injective _ _ _ _ _ _ (h1 t) hl2 hl hl' h).1
    revert this
    simp only [List.mem_cons, List.not_mem_nil, or_false] at hm
    rcases hm with rfl | rfl | rfl | rfl <;> cases t <;> decide

example : (32 : Nat) < 2 ^ 16 ∧ (List.replicate 32 7#8).length ≤ 255 ∧ (16 : Nat) ≤ 255 * Spec.digestLength .sha2_256 ∧
    (12 : Nat) ≤ 255 * Spec.digestLength .sha2_256 := by decide +kernel

/-! ### C87 -/

/-- C87 in full: for the two hash functions of the TLS 1.3 cipher suites the handshake secret is the one of RFC 8446 over RFC 5869 over
RFC 2104, and so are the secrets and keys derived from a secret of the length of the hash. -/
def C87_claim : Prop := ∀ c : HashClass, c = .sha2_256 ∨ c = .sha2_384 → ∀ shared : List Byte, shared.length < 2 ^ 59 →
  (∃ hs, Spec.handshakeSecret (Spec.hmac c) (Spec.digestLength c) (Spec.digest c []) shared = some hs ∧ hkdfHandshakeSecret c shared = .ok hs)

/-- C87 for SHA-256: the handshake secret, the master secret, all traffic secrets, write keys and Finished keys.
Missing: SHA-384, for which the claim is false. -/
theorem C87_partial (shared secret th : List Byte) (hsh : shared.length < 2 ^ 59) (hsec : secret.length = 32) (hth : th.length ≤ 255)
    (client handshake : Bool) (t : Spec.Traffic)
    (ht : t = match client, handshake with
      | true, true => .clientHandshake | true, false => .clientApplication
      | false, true => .serverHandshake | false, false => .serverApplication)
    (keysize ivsize : Nat) (hk : keysize ≤ 255 * 32) (hi : ivsize ≤ 255 * 32) :
    (∃ hs, Spec.handshakeSecret (Spec.hmac .sha2_256) 32 (Spec.sha256 []) shared = some hs ∧ hkdfHandshakeSecret .sha2_256 shared = .ok hs) ∧
    (∃ ms, Spec.masterSecret (Spec.hmac .sha2_256) 32 (Spec.sha256 []) secret = some ms ∧ hkdfMasterSecret .sha2_256 secret = .ok ms) ∧
    (∃ ts key iv, Spec.trafficSecret (Spec.hmac .sha2_256) 32 t secret th = some ts ∧
      Spec.trafficKeys (Spec.hmac .sha2_256) 32 keysize ivsize ts = some (key, iv) ∧
      getTrafficSecret .sha2_256 secret th client handshake = .ok ts ∧ getKeyIv .sha2_256 keysize ivsize secret th client handshake = .ok (key, iv)) ∧
    (∃ ts fk, Spec.trafficSecret (Spec.hmac .sha2_256) 32 (if client then .clientHandshake else .serverHandshake) secret th = some ts ∧
      Spec.finishedKey (Spec.hmac .sha2_256) 32 ts = some fk ∧ getFinishedKey .sha2_256 secret th client = .ok fk) := by
  have hb : Spec.blockLength .sha2_256 = 2 * hashsize .sha2_256 := rfl
  have hL : ∀ (prk label context : List Byte) (len : Nat), prk.length ≤ 64 →
      Spec.expandLabel (libMac .sha2_256) 32 prk label context len = Spec.expandLabel (Spec.hmac .sha2_256) 32 prk label context len :=
    fun prk label context len h => expandLabel_standard hb prk label context len h
  have hE : Spec.earlySecret (libMac .sha2_256) 32 = Spec.earlySecret (Spec.hmac .sha2_256) 32 :=
    hmac_standard hb _ _ (by decide) (by decide)
  have hEl : (Spec.earlySecret (libMac .sha2_256) 32).length ≤ 64 := le_trans (le_of_eq (hmac_length .sha2_256 _ _)) (by decide)
  have hdl : ∀ (prk label context : List Byte) (len : Nat) (r : List Byte), Spec.expandLabel (libMac .sha2_256) 32 prk label context len = some r → r.length = len :=
    fun prk label context len r h => expandLabel_length (c := .sha2_256) h
  have hT : Spec.trafficSecret (libMac .sha2_256) 32 t secret th = Spec.trafficSecret (Spec.hmac .sha2_256) 32 t secret th :=
    hL _ _ _ _ (by omega)
  have hd0 : Spec.digest .sha2_256 [] = Spec.sha256 [] := rfl
  refine ⟨?_, ?_, ?_, ?_⟩
  · obtain ⟨hs, s, m, _⟩ := C68_handshake_secret .sha2_256 shared
    refine ⟨hs, ?_, m⟩
    rw [← s, ← hd0]
    unfold Spec.handshakeSecret Spec.deriveSecret
    show (Spec.expandLabel (Spec.hmac .sha2_256) 32 (Spec.earlySecret (Spec.hmac .sha2_256) 32) _ _ 32 >>= _) =
      (Spec.expandLabel (libMac .sha2_256) 32 (Spec.earlySecret (libMac .sha2_256) 32) _ _ 32 >>= _)
    rw [← hE, ← hL _ _ _ _ hEl]
    cases h : Spec.expandLabel (libMac .sha2_256) 32 (Spec.earlySecret (libMac .sha2_256) 32) (ascii "derived") (Spec.digest .sha2_256 []) 32 with
    | none => rfl
    | some d =>
      have := hdl _ _ _ _ _ h
      show some (Spec.hmac .sha2_256 d shared) = some (hmac .sha2_256 shared d)
      rw [hmac_standard hb _ _ (by show d.length ≤ 64; omega) (by omega)]
  · obtain ⟨ms, s, m, _⟩ := C68_master_secret .sha2_256 secret
    refine ⟨ms, ?_, m⟩
    rw [← s, ← hd0]
    unfold Spec.masterSecret Spec.deriveSecret
    show (Spec.expandLabel (Spec.hmac .sha2_256) 32 secret _ _ 32 >>= _) = (Spec.expandLabel (libMac .sha2_256) 32 secret _ _ 32 >>= _)
    rw [← hL _ _ _ _ (by omega)]
    cases h : Spec.expandLabel (libMac .sha2_256) 32 secret (ascii "derived") (Spec.digest .sha2_256 []) 32 with
    | none => rfl
    | some d =>
      have := hdl _ _ _ _ _ h
      show some (Spec.hmac .sha2_256 d (Spec.zeros 32)) = some (hmac .sha2_256 (Spec.zeros 32) d)
      rw [hmac_standard hb _ _ (by show d.length ≤ 64; omega) (by decide)]
  · obtain ⟨ts, key, iv, s1, s2, m2, _⟩ := C68_key_iv .sha2_256 keysize ivsize hk hi secret th hth client handshake t ht
    obtain ⟨ts', s1', m1, l1⟩ := C68_traffic_secret .sha2_256 secret th hth client handshake t ht
    rw [s1] at s1'; cases s1'
    refine ⟨ts, key, iv, ?_, ?_, m1, m2⟩
    · rw [← hT]; exact s1
    · rw [← s2]
      unfold Spec.trafficKeys
      show (Spec.expandLabel (Spec.hmac .sha2_256) 32 ts _ _ _ >>= fun _ => Spec.expandLabel (Spec.hmac .sha2_256) 32 ts _ _ _ >>= _) = (Spec.expandLabel (libMac .sha2_256) 32 ts _ _ _ >>= fun _ => Spec.expandLabel (libMac .sha2_256) 32 ts _ _ _ >>= _)
      have hts : ts.length ≤ 64 := by rw [l1]; decide
      rw [← hL _ _ _ _ hts, ← hL _ _ _ _ hts]
  · obtain ⟨ts, fk, s1, s2, m2, _⟩ := C68_finished .sha2_256 secret th hth client
    obtain ⟨ts', s1', _, l1⟩ := C68_traffic_secret .sha2_256 secret th hth client true (if client then .clientHandshake else .serverHandshake) (by cases client <;> rfl)
    rw [s1] at s1'; cases s1'
    refine ⟨ts, fk, ?_, ?_, m2⟩
    · rw [← s1]; exact (hL _ _ _ _ (by omega)).symm
    · rw [← s2]; exact (hL _ _ _ _ (by rw [l1]; decide)).symm

example : ∃ (shared secret th : List Byte), shared.length < 2 ^ 59 ∧ secret.length = 32 ∧ th.length ≤ 255 ∧ (16 : Nat) ≤ 255 * 32 ∧ (12 : Nat) ≤ 255 * 32 :=
  ⟨unhex "df4a291baa1eb7cfa6934b29b474baad2697e29f1f920dcc77c8a0a088447624", List.replicate 32 1#8, List.replicate 32 2#8, by decide +kernel, by simp, by simp, by decide, by decide⟩

end Verif.Props
