import Verif.Proof.GcmSession
import Verif.Props.Aes

/-! C55 - C60: Galois/counter mode and counter mode. -/

namespace Verif.Props

open Verif.Model Verif.Spec Verif.Spec.Gcm Verif.Proof

/-! ### AES as the cipher -/

theorem isCipher_of {S : Type} (C : Cipher S) (key : List Byte) (s : S) (f : List Byte → List Byte) (hs : C.schedule key = .ok s)
    (h : ∀ block, (do let r ← C.encrypt s (loadBytes block); return storeu r : Out (List Byte)) = .ok (f block)) :
    ∃ E, IsCipher C key E ∧ ciph E = f := by
  have h2 : ∀ block, ∃ r, C.encrypt s (loadBytes block) = .ok r ∧ storeu r = f block := by
    intro block
    have := h block
    cases e : C.encrypt s (loadBytes block) with
    | ok r => rw [e] at this; exact ⟨r, rfl, Except.ok.inj this⟩
    | error x => rw [e] at this; exact absurd this (by rw [error_bind]; simp)
  choose g hg using h2
  refine ⟨fun b => g (storeu b), ⟨s, hs, fun b => ?_⟩, ?_⟩
  · have := (hg (storeu b)).1
    rwa [load_storeu] at this
  · funext l
    have h1 := (hg (storeu (loadBytes l))).1
    rw [load_storeu, (hg l).1] at h1
    rw [ciph, ← Except.ok.inj h1, (hg l).2]

/-- AES-128, whatever the memory of its schedule held. -/
theorem aes128_isCipher (junk key : List Byte) (hk : key.length = 16) : ∃ E, IsCipher (aesCipher128 junk) key E ∧ ciph E = Aes.aes128 key := by
  have hs : aesSchedule128 junk key = .ok (aesChain128 (loadBytes key)) := by
    rw [aesSchedule128, if_pos (by omega), load_overwrite _ _ (by omega)]
  refine isCipher_of _ key _ _ hs (fun block => ?_)
  have := C52_aes128 junk key block hk
  rwa [aesBlock128, hs] at this

/-- AES-256. -/
theorem aes256_isCipher (key : List Byte) (hk : key.length = 32) : ∃ E, IsCipher aesCipher256 key E ∧ ciph E = Aes.aes256 key := by
  have hs : aesSchedule256 key = .ok (aesChain256 (loadBytes key) (loadBytes (key.drop 16))) := by
    rw [aesSchedule256, loadu, loadu, if_pos (by omega), if_pos (by omega)]; rfl
  refine isCipher_of _ key _ _ hs (fun block => ?_)
  have := C52_aes256 key block hk
  rwa [aesBlock256, hs] at this

/-! ### C55 -/

/-- C55 in full, for AES-128: with every IV allowed by SP 800-38D the first message is GCM-AE, and with a 12-byte IV message `n` is GCM-AE under the IV
whose last eight bytes are xored with `n`. -/
def C55_claim : Prop := ∀ (junk key iv p a : List Byte) (z0 : M128) (ops : List GcmOp), junk.length = 176 → key.length = 16 → 1 ≤ iv.length →
  (∃ g g', gcmNew (aesCipher128 junk) z0 key iv = .ok g ∧ gcmEncrypt (aesCipher128 junk) g p a = .ok (ae (Aes.aes128 key) iv p a, g')) ∧
  (iv.length = 12 → ops.length < 2 ^ 64 → ∃ g g', gcmAfter (aesCipher128 junk) z0 key iv ops = .ok g ∧
    gcmEncrypt (aesCipher128 junk) g p a = .ok (ae (Aes.aes128 key) (recordNonce iv ops.length) p a, g'))

/-- Any cipher, 12-byte IV: message number `ops.length` (after any history of calls of `Encrypt` and `Decrypt`) is GCM-AE under the record nonce. -/
theorem C55_records {S : Type} (C : Cipher S) (key : List Byte) (E : M128 → M128) (hC : IsCipher C key E) (z0 : M128) (iv : List Byte)
    (h12 : iv.length = 12) (ops : List GcmOp) (p a : List Byte) : ∃ g g', gcmAfter C z0 key iv ops = .ok g ∧
      gcmEncrypt C g p a = .ok (ae (ciph E) (recordNonce iv (ops.length % 2 ^ 64)) p a, g') := by
  have hs : Supported iv := Or.inr (by omega)
  obtain ⟨g, e, h, _⟩ := gcmAfter_at hC z0 hs ops
  exact ⟨g, _, e, by rw [h.encrypt hs, jOf, if_pos h12]; rfl⟩

theorem xorBytes_zero (l : List Byte) : xorBytes l (List.replicate l.length 0#8) = l := by
  induction l with
  | nil => rfl
  | cons a l ih =>
    rw [List.length_cons, List.replicate_succ, xorBytes, List.zipWith_cons_cons, BitVec.xor_zero]
    exact congrArg _ ih

theorem recordNonce_zero {iv : List Byte} (h : iv.length = 12) : recordNonce iv 0 = iv := by
  have h0 : List.replicate (iv.length - 8) 0#8 ++ be64 0 = List.replicate iv.length 0#8 := by rw [h]; decide
  rw [recordNonce, h0, xorBytes_zero]

theorem xor_zero16 {j : List Byte} (h : j.length = 16) : xorBytes j (List.replicate 4 0#8 ++ be64 0 ++ List.replicate 4 0#8) = j := by
  have h0 : List.replicate 4 0#8 ++ be64 0 ++ List.replicate 4 0#8 = List.replicate j.length 0#8 := by rw [h]; decide
  rw [h0, xorBytes_zero]

/-- Any cipher, IV of 8 or at least 12 bytes: the first message is GCM-AE under that IV. -/
theorem C55_first {S : Type} (C : Cipher S) (key : List Byte) (E : M128 → M128) (hC : IsCipher C key E) (z0 : M128) (iv : List Byte)
    (hs : iv.length = 8 ∨ 12 ≤ iv.length) (p a : List Byte) : ∃ g g', gcmNew C z0 key iv = .ok g ∧ gcmEncrypt C g p a = .ok (ae (ciph E) iv p a, g') := by
  obtain ⟨g, e, h, _⟩ := gcmNew_at hC z0 iv
  have : jOf E iv (0 % 2 ^ 64) = j0 (ciph E) iv := by
    rw [jOf, Nat.zero_mod]
    split
    · rename_i h12; rw [recordNonce_zero h12]
    · rename_i h12; rw [xor_zero16 (by rw [j0, if_neg h12, unblock_len])]
  have he := h.encrypt hs p a
  rw [this] at he
  exact ⟨g, _, e, he⟩

/-- Other IV lengths: nothing is encrypted, whatever came before. -/
theorem C55_unsupported {S : Type} (C : Cipher S) (key : List Byte) (E : M128 → M128) (hC : IsCipher C key E) (z0 : M128) (iv : List Byte)
    (hs : ¬ (iv.length = 8 ∨ 12 ≤ iv.length)) (ops : List GcmOp) (p a : List Byte) : ∃ g, gcmAfter C z0 key iv ops = .ok g ∧
      gcmEncrypt C g p a = .ok (([], List.replicate 16 0#8), g) := by
  obtain ⟨g, _, e, h⟩ := gcmAfter_unsupported hC z0 hs ops
  exact ⟨g, e, by rw [gcmEncrypt, if_pos h]; rfl⟩

/-- A case that meets the hypotheses of `C55_unsupported`. -/
example : ∃ E, IsCipher aesCipher256 (List.replicate 32 3#8) E ∧ ¬ ((List.replicate 9 1#8 : List Byte).length = 8 ∨ 12 ≤ (List.replicate 9 1#8 : List Byte).length) :=
  let ⟨E, h, _⟩ := aes256_isCipher (List.replicate 32 3#8) rfl
  ⟨E, h, by decide⟩

theorem ae_length (E : M128 → M128) (iv p a : List Byte) : (ae (ciph E) iv p a).1.length = p.length := gctr_length _ _ _

/-- C55 fails: with a one-byte IV the message is dropped. -/
theorem C55_false : ¬ C55_claim := by
  intro h
  obtain ⟨⟨g, g', e1, e2⟩, _⟩ := h (List.replicate 176 0#8) (List.replicate 16 0#8) [0#8] [0#8] [] 0#128 [] rfl rfl (by decide)
  obtain ⟨E, hC, hE⟩ := aes128_isCipher (List.replicate 176 0#8) (List.replicate 16 0#8) rfl
  obtain ⟨g2, e3, e4⟩ := C55_unsupported _ _ E hC 0#128 [0#8] (by decide) [] [0#8] []
  have : g = g2 := by
    rw [gcmAfter, e1] at e3
    exact Except.ok.inj e3
  rw [this, e4, ← hE] at e2
  have h1 := ae_length E [0#8] [0#8] []
  rw [← (Prod.mk.inj (Except.ok.inj e2)).1] at h1
  exact absurd h1 (by decide)

/-- C55 for AES-128, all IV lengths. Missing: GCM-AE for IVs of 1 to 7 and 9 to 11 bytes. -/
theorem C55_partial (junk key iv p a : List Byte) (z0 : M128) (ops : List GcmOp) (hk : key.length = 16) :
    (iv.length = 8 ∨ 12 ≤ iv.length →
      ∃ g g', gcmNew (aesCipher128 junk) z0 key iv = .ok g ∧ gcmEncrypt (aesCipher128 junk) g p a = .ok (ae (Aes.aes128 key) iv p a, g')) ∧
    (iv.length = 12 → ops.length < 2 ^ 64 → ∃ g g', gcmAfter (aesCipher128 junk) z0 key iv ops = .ok g ∧
      gcmEncrypt (aesCipher128 junk) g p a = .ok (ae (Aes.aes128 key) (recordNonce iv ops.length) p a, g')) ∧
    (¬ (iv.length = 8 ∨ 12 ≤ iv.length) → ∃ g, gcmNew (aesCipher128 junk) z0 key iv = .ok g ∧
      gcmEncrypt (aesCipher128 junk) g p a = .ok (([], List.replicate 16 0#8), g)) := by
  obtain ⟨E, hC, hE⟩ := aes128_isCipher junk key hk
  rw [← hE]
  refine ⟨fun h => C55_first _ key E hC z0 iv h p a, fun h hl => ?_, fun h => ?_⟩
  · have := C55_records _ key E hC z0 iv h ops p a
    rwa [Nat.mod_eq_of_lt hl] at this
  · obtain ⟨g, e, e2⟩ := C55_unsupported _ key E hC z0 iv h [] p a
    refine ⟨g, ?_, e2⟩
    rw [gcmAfter] at e
    obtain ⟨g3, e3, _⟩ := gcmNew_at hC z0 iv
    rw [e3] at e ⊢
    exact e

/-- A case that meets the hypotheses of `C55_partial`. -/
example := (C55_partial (List.replicate 176 7#8) (List.replicate 16 3#8) (List.replicate 12 9#8) [1#8] [2#8] 0#128 [.enc [] []] rfl).2.1 rfl (by decide)

/-- The same for AES-256. -/
theorem C55_aes256_partial (key iv p a : List Byte) (z0 : M128) (ops : List GcmOp) (hk : key.length = 32) :
    (iv.length = 8 ∨ 12 ≤ iv.length →
      ∃ g g', gcmNew aesCipher256 z0 key iv = .ok g ∧ gcmEncrypt aesCipher256 g p a = .ok (ae (Aes.aes256 key) iv p a, g')) ∧
    (iv.length = 12 → ops.length < 2 ^ 64 → ∃ g g', gcmAfter aesCipher256 z0 key iv ops = .ok g ∧
      gcmEncrypt aesCipher256 g p a = .ok (ae (Aes.aes256 key) (recordNonce iv ops.length) p a, g')) := by
  obtain ⟨E, hC, hE⟩ := aes256_isCipher key hk
  rw [← hE]
  refine ⟨fun h => C55_first _ key E hC z0 iv h p a, fun h hl => ?_⟩
  have := C55_records _ key E hC z0 iv h ops p a
  rwa [Nat.mod_eq_of_lt hl] at this

/-- Test case 4 of McGrew and Viega's paper, evaluated in the model. -/
example : (do
    let g ← gcmNew (aesCipher128 (List.replicate 176 0#8)) 0#128 (unhex "feffe9928665731c6d6a8f9467308308") (unhex "cafebabefacedbaddecaf888")
    let r ← gcmEncrypt (aesCipher128 (List.replicate 176 0#8)) g (unhex "d9313225f88406e5a55909c5aff5269a86a7a9531534f7da2e4c303d8a318a721c3c0c95956809532fcf0e2449a6b525b16aedf5aa0de657ba637b39")
      (unhex "feedfacedeadbeeffeedfacedeadbeefabaddad2")
    return r.1.2 : Out (List Byte)) = .ok (unhex "5bc94fbc3221a5db94fae95ae7121a47") := by decide +kernel

/-! ### C56 -/

/-- Encrypt a sequence of messages `(plaintext, aad)` with one object. -/
def gcmEncryptAll {S : Type} (C : Cipher S) : Gcm S → List (List Byte × List Byte) → Out (List (List Byte × List Byte) × Gcm S)
  | g, [] => .ok ([], g)
  | g, (p, a) :: ms => do
    let (r, g) ← gcmEncrypt C g p a
    let (rs, g) ← gcmEncryptAll C g ms
    return (r :: rs, g)

/-- Decrypt a sequence of messages `(ciphertext, aad, tag)` with one object. -/
def gcmDecryptAll {S : Type} (C : Cipher S) : Gcm S → List (List Byte × List Byte × List Byte) → Out (List (List Byte × Bool) × Gcm S)
  | g, [] => .ok ([], g)
  | g, (c, a, t) :: ms => do
    let (r, g) ← gcmDecrypt C g c a t
    let (rs, g) ← gcmDecryptAll C g ms
    return (r :: rs, g)

theorem gcmSync {S S' : Type} {C : Cipher S} {C' : Cipher S'} {E : M128 → M128} {iv : List Byte} (hs : Supported iv) :
    ∀ (ms : List (List Byte × List Byte)) (n : Nat) (g : Gcm S) (g' : Gcm S'), GcmAt C E iv n g → GcmAt C' E iv n g' →
      ∃ cs g1 g1', gcmEncryptAll C g ms = .ok (cs, g1) ∧ cs.length = ms.length ∧
        gcmDecryptAll C' g' (List.zipWith (fun m r => (r.1, m.2, r.2)) ms cs) = .ok (ms.map (fun m => (m.1, true)), g1') := by
  intro ms
  induction ms with
  | nil => exact fun n g g' _ _ => ⟨[], g, g', rfl, rfl, rfl⟩
  | cons m ms ih =>
    obtain ⟨p, a⟩ := m
    intro n g g' h h'
    have e := h.encrypt hs p a
    obtain ⟨cs, g1, g1', e1, l1, e2⟩ := ih (n + 1) _ _ (h.next (jOf E iv (n % 2 ^ 64)) p.length) (h'.next (jOf E iv (n % 2 ^ 64)) p.length)
    refine ⟨aeJ (ciph E) (jOf E iv (n % 2 ^ 64)) p a :: cs, g1, g1', ?_, by simp [l1], ?_⟩
    · rw [gcmEncryptAll, e, ok_bind]
      simp only [e1, ok_bind]
      rfl
    · rw [List.zipWith_cons_cons, gcmDecryptAll, h'.roundtrip hs, ok_bind]
      simp only [e2, ok_bind]
      rfl

/-- C56: two objects made from the same key and IV (of 8 bytes or at least 12), after histories of calls of the same length: every sequence of
messages encrypted by one and decrypted in order by the other comes back, with the verdict true. The objects may have different uninitialised memory
(`z0`, `z0'`, and that of the ciphers `C`, `C'`). -/
theorem C56_session {S S' : Type} (C : Cipher S) (C' : Cipher S') (key : List Byte) (E : M128 → M128) (hC : IsCipher C key E) (hC' : IsCipher C' key E)
    (z0 z0' : M128) (iv : List Byte) (hs : iv.length = 8 ∨ 12 ≤ iv.length) (ops ops' : List GcmOp) (ho : ops.length = ops'.length)
    (ms : List (List Byte × List Byte)) :
    ∃ g g' cs g1 g1', gcmAfter C z0 key iv ops = .ok g ∧ gcmAfter C' z0' key iv ops' = .ok g' ∧
      gcmEncryptAll C g ms = .ok (cs, g1) ∧ cs.length = ms.length ∧
      gcmDecryptAll C' g' (List.zipWith (fun m r => (r.1, m.2, r.2)) ms cs) = .ok (ms.map (fun m => (m.1, true)), g1') := by
  obtain ⟨g, e, h, _⟩ := gcmAfter_at hC z0 hs ops
  obtain ⟨g', e', h', _⟩ := gcmAfter_at hC' z0' hs ops'
  rw [← ho] at h'
  obtain ⟨cs, g1, g1', e1, l1, e2⟩ := gcmSync hs ms _ g g' h h'
  exact ⟨g, g', cs, g1, g1', e, e', e1, l1, e2⟩

/-- C56 for AES-128. -/
theorem C56_aes128 (junk junk' key : List Byte) (hk : key.length = 16) (z0 z0' : M128) (iv : List Byte) (hs : iv.length = 8 ∨ 12 ≤ iv.length)
    (ms : List (List Byte × List Byte)) :
    ∃ g g' cs g1 g1', gcmNew (aesCipher128 junk) z0 key iv = .ok g ∧ gcmNew (aesCipher128 junk') z0' key iv = .ok g' ∧
      gcmEncryptAll (aesCipher128 junk) g ms = .ok (cs, g1) ∧ cs.length = ms.length ∧
      gcmDecryptAll (aesCipher128 junk') g' (List.zipWith (fun m r => (r.1, m.2, r.2)) ms cs) = .ok (ms.map (fun m => (m.1, true)), g1') := by
  obtain ⟨E, hC, hE⟩ := aes128_isCipher junk key hk
  obtain ⟨E', hC', hE'⟩ := aes128_isCipher junk' key hk
  have hEE : E = E' := by
    funext b
    have h1 := congrFun (hE.trans hE'.symm) (storeu b)
    rw [ciph, ciph, load_storeu] at h1
    exact storeu_inj h1
  subst hEE
  obtain ⟨g, e, h, _⟩ := gcmNew_at hC z0 iv
  obtain ⟨g', e', h', _⟩ := gcmNew_at hC' z0' iv
  obtain ⟨cs, g1, g1', e1, l1, e2⟩ := gcmSync hs ms _ g g' h h'
  exact ⟨g, g', cs, g1, g1', e, e', e1, l1, e2⟩

/-- A cipher, key and IV as required by C55 to C59. -/
example : ∃ E, IsCipher (aesCipher128 (List.replicate 176 7#8)) (List.replicate 16 1#8) E ∧ ciph E = Aes.aes128 (List.replicate 16 1#8) :=
  aes128_isCipher _ _ rfl

/-! ### C57 -/

/-- C57: after any history, `Decrypt` succeeds exactly when ciphertext and tag are those that `Encrypt` of the same object gives for the returned
plaintext and the additional data. -/
theorem C57_exact {S : Type} (C : Cipher S) (key : List Byte) (E : M128 → M128) (hC : IsCipher C key E) (z0 : M128) (iv : List Byte)
    (hs : iv.length = 8 ∨ 12 ≤ iv.length) (ops : List GcmOp) (c a t : List Byte) :
    ∃ g p v g' ct tg g'', gcmAfter C z0 key iv ops = .ok g ∧ gcmDecrypt C g c a t = .ok ((p, v), g') ∧ gcmEncrypt C g p a = .ok ((ct, tg), g'') ∧
      ct = c ∧ (v = true ↔ tg = t) := by
  obtain ⟨g, e, h, _⟩ := gcmAfter_at hC z0 hs ops
  refine ⟨g, _, _, _, _, _, _, e, h.decrypt hs c a t, h.encrypt hs _ a, gctr_gctr _ _ _, ?_⟩
  rw [gctr_gctr, decide_eq_true_eq]

/-- C57 in terms of the standard, for 12-byte IVs: `Decrypt` succeeds exactly when GCM-AD does, and then gives its plaintext. -/
theorem C57_standard {S : Type} (C : Cipher S) (key : List Byte) (E : M128 → M128) (hC : IsCipher C key E) (z0 : M128) (iv : List Byte)
    (h12 : iv.length = 12) (ops : List GcmOp) (c a t : List Byte) :
    ∃ g p v g', gcmAfter C z0 key iv ops = .ok g ∧ gcmDecrypt C g c a t = .ok ((p, v), g') ∧
      adJ (ciph E) (j0 (ciph E) (recordNonce iv (ops.length % 2 ^ 64))) c a t = (if v then some p else none) ∧
      (v = true ↔ ae (ciph E) (recordNonce iv (ops.length % 2 ^ 64)) p a = (c, t)) := by
  have hs : Supported iv := Or.inr (by omega)
  obtain ⟨g, e, h, _⟩ := gcmAfter_at hC z0 hs ops
  refine ⟨g, _, _, _, e, h.decrypt hs c a t, ?_, ?_⟩
  · rw [jOf, if_pos h12, adJ]
    simp only [eq_comm (a := t), decide_eq_true_eq]
  · rw [jOf, if_pos h12, decide_eq_true_eq, ae, aeJ, gctr_gctr]
    constructor
    · intro h; rw [h]
    · intro h; exact (Prod.mk.inj h).2

/-- C57: a message accepted with one tag is rejected with every other. -/
theorem C57_tag {S : Type} (C : Cipher S) (key : List Byte) (E : M128 → M128) (hC : IsCipher C key E) (z0 : M128) (iv : List Byte)
    (hs : iv.length = 8 ∨ 12 ≤ iv.length) (ops : List GcmOp) (c a t t' : List Byte) (g : Gcm S) (p : List Byte) (g' : Gcm S)
    (hg : gcmAfter C z0 key iv ops = .ok g) (hd : gcmDecrypt C g c a t = .ok ((p, true), g')) (ht : t' ≠ t) :
    ∃ g'', gcmDecrypt C g c a t' = .ok ((p, false), g'') := by
  obtain ⟨g2, e, h, _⟩ := gcmAfter_at hC z0 hs ops
  rw [hg] at e
  have := Except.ok.inj e
  subst this
  rw [h.decrypt hs] at hd
  have h1 := (Prod.mk.inj (Prod.mk.inj (Except.ok.inj hd)).1)
  have h2 := h.decrypt hs c a t'
  rw [h1.1, of_decide_eq_true h1.2, decide_eq_false (fun h => ht h.symm)] at h2
  exact ⟨_, h2⟩

/-- C57: with other IV lengths nothing is ever accepted. -/
theorem C57_unsupported {S : Type} (C : Cipher S) (key : List Byte) (E : M128 → M128) (hC : IsCipher C key E) (z0 : M128) (iv : List Byte)
    (hs : ¬ (iv.length = 8 ∨ 12 ≤ iv.length)) (ops : List GcmOp) (c a t : List Byte) : ∃ g, gcmAfter C z0 key iv ops = .ok g ∧
      gcmDecrypt C g c a t = .ok (([], false), g) := by
  obtain ⟨g, _, e, h⟩ := gcmAfter_unsupported hC z0 hs ops
  exact ⟨g, e, by rw [gcmDecrypt, if_pos h]; rfl⟩

/-- A case that meets the hypotheses of `C57_unsupported`. -/
example : ∃ E, IsCipher aesCipher256 (List.replicate 32 3#8) E ∧ ¬ (([] : List Byte).length = 8 ∨ 12 ≤ ([] : List Byte).length) :=
  let ⟨E, h, _⟩ := aes256_isCipher (List.replicate 32 3#8) rfl
  ⟨E, h, by decide⟩

/-! ### C58 -/

/-- C58: with a 12-byte IV all blocks given to the block cipher over a whole session - for the hash subkey, the tag masks and the keystream of up to
`2^64` messages of fewer than `2^32 - 1` blocks, sent and received - are pairwise distinct. -/
theorem C58_distinct {S : Type} (C : Cipher S) (key : List Byte) (E : M128 → M128) (hC : IsCipher C key E) (z0 : M128) (iv : List Byte)
    (h12 : iv.length = 12) (ops : List GcmOp) (hn : ops.length ≤ 2 ^ 64) (hl : ∀ op ∈ ops, (op.text.length + 15) / 16 < 2 ^ 32 - 1) :
    ∃ g, gcmAfter C z0 key iv ops = .ok g ∧ g.log.Nodup ∧ g.log.length = 1 + (ops.map (fun op => 1 + (op.text.length + 15) / 16)).sum := by
  have hs : Supported iv := Or.inr (by omega)
  obtain ⟨g, e, _, l⟩ := gcmAfter_at hC z0 hs ops
  refine ⟨g, e, ?_, ?_⟩
  · rw [l, List.nodup_cons]
    exact ⟨sessionLog_zero h12 ops 0 hl, sessionLog_nodup h12 ops 0 (by omega) hl⟩
  · have hlen : ∀ (ops : List GcmOp) (n : Nat), (sessionLog E iv n ops).length = (ops.map (fun op => 1 + (op.text.length + 15) / 16)).sum := by
      intro ops
      induction ops with
      | nil => exact fun _ => rfl
      | cons op ops ih =>
        intro n
        rw [sessionLog, List.length_append, ih, List.map_cons, List.sum_cons, msgLog, ctrLog, List.length_map, List.length_range, Nat.add_comm 1]
    rw [l, List.length_cons, hlen, Nat.add_comm]

example : ∀ op ∈ [GcmOp.enc (List.replicate 100 1#8) [], GcmOp.dec [] [] (List.replicate 16 0#8)], (op.text.length + 15) / 16 < 2 ^ 32 - 1 := by
  intro op h
  rcases List.mem_cons.mp h with rfl | h
  · decide
  · rcases List.mem_cons.mp h with rfl | h
    · decide
    · simp at h

/-! ### C59 -/

/-- C59 in full, for AES-128 and 12-byte IVs: a rejected message gives no plaintext, and the message that the peer sends next is still accepted. -/
def C59_claim : Prop := ∀ (junk key iv c a t : List Byte) (z0 : M128) (ops : List GcmOp) (g g1 : Gcm (List M128)) (p : List Byte),
  junk.length = 176 → key.length = 16 → iv.length = 12 → t.length = 16 → gcmAfter (aesCipher128 junk) z0 key iv ops = .ok g →
  gcmDecrypt (aesCipher128 junk) g c a t = .ok ((p, false), g1) →
  p = [] ∧ ∀ (m b ct tag : List Byte) (g2 : Gcm (List M128)), gcmEncrypt (aesCipher128 junk) g m b = .ok ((ct, tag), g2) →
    ∃ g3, gcmDecrypt (aesCipher128 junk) g1 ct b tag = .ok ((m, true), g3)

/-- Both halves fail: the forged message with ciphertext `00` and tag `00..00` gives one byte of plaintext, and after it the genuine first message is
rejected. -/
theorem C59_counterexample : (do
    let C := aesCipher128 (List.replicate 176 0#8)
    let g ← gcmNew C 0#128 (List.replicate 16 0#8) (List.replicate 12 0#8)
    let r1 ← gcmDecrypt C g [0#8] [] (List.replicate 16 0#8)
    let m ← gcmEncrypt C g [1#8, 2#8, 3#8] []
    let r2 ← gcmDecrypt C r1.2 m.1.1 [] m.1.2
    return (r1.1.1.length, r1.1.2, r2.1.2) : Out (Nat × Bool × Bool)) = .ok (1, false, false) := by decide +kernel

/-- C59 fails. -/
theorem C59_false : ¬ C59_claim := by
  intro h
  have ce := C59_counterexample
  obtain ⟨E, hC, hE⟩ := aes128_isCipher (List.replicate 176 0#8) (List.replicate 16 0#8) rfl
  obtain ⟨g, e, hg, _⟩ := gcmNew_at hC 0#128 (List.replicate 12 0#8)
  have hs : Supported (List.replicate 12 0#8) := Or.inr (by decide)
  have hd := hg.decrypt hs [0#8] [] (List.replicate 16 0#8)
  have hm := hg.encrypt hs [1#8, 2#8, 3#8] []
  simp only [e, ok_bind, hd, hm] at ce
  have hp := h (List.replicate 176 0#8) (List.replicate 16 0#8) (List.replicate 12 0#8) [0#8] [] (List.replicate 16 0#8) 0#128 [] g
    (gcmNext E g (jOf E (List.replicate 12 0#8) (0 % 2 ^ 64)) [0#8].length) (gctr (ciph E) (inc32 (jOf E (List.replicate 12 0#8) (0 % 2 ^ 64))) [0#8])
    rfl rfl rfl rfl (by rw [gcmAfter, e]; rfl)
  have hv := (hg.next (jOf E (List.replicate 12 0#8) (0 % 2 ^ 64)) [0#8].length).decrypt hs
  simp only [hv, ok_bind] at ce
  have h1 := Except.ok.inj ce
  rw [hd] at hp
  have hfalse := (Prod.mk.inj (Prod.mk.inj h1).2).1
  rw [hfalse] at hp
  have := (hp rfl).1
  have hl := gctr_length E (inc32 (jOf E (List.replicate 12 0#8) (0 % 2 ^ 64))) [0#8]
  rw [this] at hl
  exact absurd hl (by decide)

/-- What holds instead: whatever the tag and the additional data, `Decrypt` returns the counter mode decryption of the ciphertext and counts one message;
so a forged message in the place of message `n` does not disturb message `n + 1`, while a message inserted before message `n` shifts all later ones.
Missing: no plaintext on failure, and no shift. -/
theorem C59_partial {S S' : Type} (C : Cipher S) (C' : Cipher S') (key : List Byte) (E : M128 → M128) (hC : IsCipher C key E) (hC' : IsCipher C' key E)
    (z0 z0' : M128) (iv : List Byte) (hs : iv.length = 8 ∨ 12 ≤ iv.length) (ops ops' : List GcmOp) (ho : ops.length + 1 = ops'.length)
    (c a t : List Byte) (m b : List Byte) :
    ∃ g p v g1 h ct tag h1 g2, gcmAfter C z0 key iv ops = .ok g ∧ gcmDecrypt C g c a t = .ok ((p, v), g1) ∧
      p.length = c.length ∧ (∀ a' t', ∃ v', gcmDecrypt C g c a' t' = .ok ((p, v'), g1)) ∧
      gcmAfter C' z0' key iv ops' = .ok h ∧ gcmEncrypt C' h m b = .ok ((ct, tag), h1) ∧
      gcmDecrypt C g1 ct b tag = .ok ((m, true), g2) := by
  obtain ⟨g, e, h, _⟩ := gcmAfter_at hC z0 hs ops
  obtain ⟨g', e', h', _⟩ := gcmAfter_at hC' z0' hs ops'
  rw [← ho] at h'
  have hr := (h.next (jOf E iv (ops.length % 2 ^ 64)) c.length).roundtrip hs m b
  exact ⟨g, _, _, _, g', _, _, _, _, e, h.decrypt hs c a t, gctr_length _ _ _, fun a' t' => ⟨_, h.decrypt hs c a' t'⟩, e', h'.encrypt hs m b, hr⟩

end Verif.Props
