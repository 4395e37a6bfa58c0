import Verif.Proof.GcmCtr

/-! Galois/counter mode: histories of calls. -/

namespace Verif.Proof

open Verif.Model Verif.Spec Verif.Spec.Gcm

/-- The schedule made from `key` exists and encrypts by `E`. -/
def IsCipher {S : Type} (C : Cipher S) (key : List Byte) (E : M128 → M128) : Prop :=
  ∃ sched, C.schedule key = .ok sched ∧ ∀ b, C.encrypt sched b = .ok (E b)

/-- A call of `Encrypt` or `Decrypt`. -/
inductive GcmOp where
  | enc (plaintext aad : List Byte)
  | dec (ciphertext aad tag : List Byte)

/-- The text of a call. -/
def GcmOp.text : GcmOp → List Byte
  | .enc p _ => p
  | .dec c _ _ => c

/-- The object after a call. -/
def gcmStep {S : Type} (C : Cipher S) (g : Gcm S) : GcmOp → Out (Gcm S)
  | .enc p a => do return (← gcmEncrypt C g p a).2
  | .dec c a t => do return (← gcmDecrypt C g c a t).2

/-- The object after a history of calls. -/
def gcmSteps {S : Type} (C : Cipher S) : Gcm S → List GcmOp → Out (Gcm S)
  | g, [] => .ok g
  | g, op :: ops => do gcmSteps C (← gcmStep C g op) ops

/-- The object after construction and a history of calls. -/
def gcmAfter {S : Type} (C : Cipher S) (z0 : M128) (key iv : List Byte) (ops : List GcmOp) : Out (Gcm S) := do
  gcmSteps C (← gcmNew C z0 key iv) ops

/-- IV lengths that are processed. -/
def Supported (iv : List Byte) : Prop := iv.length = 8 ∨ 12 ≤ iv.length

/-- Pre-counter block of message `n`. -/
def jOf (E : M128 → M128) (iv : List Byte) (n : Nat) : List Byte :=
  if iv.length = 12 then j0 (ciph E) (recordNonce iv n) else xorBytes (j0 (ciph E) iv) (List.replicate 4 0#8 ++ be64 n ++ List.replicate 4 0#8)

/-- The object `g` was made from a cipher `E` and `iv` and has processed `n` messages. -/
structure GcmAt {S : Type} (C : Cipher S) (E : M128 → M128) (iv : List Byte) (n : Nat) (g : Gcm S) : Prop where
  enc : ∀ b, C.encrypt g.sched b = .ok (E b)
  h : g.h = (subkey (ciph E)).reverse
  iv : g.iv = keptIv E iv
  counter : g.counter = BitVec.ofNat 64 n

theorem jOf_length (E : M128 → M128) (iv : List Byte) (n : Nat) : (jOf E iv n).length = 16 := by
  rw [jOf]
  split
  · rename_i h
    rw [j0, if_pos (recordNonce_length h n), List.length_append, recordNonce_length h n]; rfl
  · rename_i h
    have : (j0 (ciph E) iv).length = 16 := by rw [j0, if_neg h, unblock_len]
    simp [xorBytes_length, be64_length, this]

theorem GcmAt.start {S : Type} {C : Cipher S} {E : M128 → M128} {iv : List Byte} {n : Nat} {g : Gcm S} (h : GcmAt C E iv n g) (hs : Supported iv) :
    12 ≤ g.iv.length ∧ ctrStart g.iv g.counter = .ok (jOf E iv (n % 2 ^ 64)) := by
  have hc : g.counter.toNat = n % 2 ^ 64 := by rw [h.counter, BitVec.toNat_ofNat]
  rw [h.iv, keptIv]
  split
  · rename_i hiv
    have h12 : iv.length ≠ 12 := by omega
    have hl : (j0 (ciph E) iv).length = 16 := by rw [j0, if_neg h12, unblock_len]
    exact ⟨by omega, by rw [ctrStart_16 hl, jOf, if_neg h12, hc]⟩
  · rename_i hiv
    have h12 : iv.length = 12 := by rw [Supported] at hs; omega
    exact ⟨by omega, by rw [ctrStart_12 h12, jOf, if_pos h12, j0, if_pos (recordNonce_length h12 _), hc]⟩

theorem GcmAt.unsupported {S : Type} {C : Cipher S} {E : M128 → M128} {iv : List Byte} {n : Nat} {g : Gcm S} (h : GcmAt C E iv n g)
    (hs : ¬ Supported iv) : g.iv.length < 12 := by
  rw [Supported] at hs
  rw [h.iv, keptIv, if_neg (by omega)]; omega

theorem GcmAt.next {S : Type} {C : Cipher S} {E : M128 → M128} {iv : List Byte} {n : Nat} {g : Gcm S} (h : GcmAt C E iv n g) (j : List Byte) (k : Nat) :
    GcmAt C E iv (n + 1) (gcmNext E g j k) :=
  ⟨h.enc, h.h, h.iv, by
    show g.counter + 1#64 = _
    rw [h.counter]
    apply BitVec.eq_of_toNat_eq
    rw [BitVec.toNat_add, BitVec.toNat_ofNat, BitVec.toNat_ofNat, BitVec.toNat_ofNat]
    omega⟩

theorem GcmAt.encrypt {S : Type} {C : Cipher S} {E : M128 → M128} {iv : List Byte} {n : Nat} {g : Gcm S} (h : GcmAt C E iv n g) (hs : Supported iv)
    (p a : List Byte) : gcmEncrypt C g p a = .ok (aeJ (ciph E) (jOf E iv (n % 2 ^ 64)) p a, gcmNext E g (jOf E iv (n % 2 ^ 64)) p.length) :=
  gcmEncrypt_spec C g E h.enc h.h (h.start hs).1 _ (jOf_length _ _ _) (h.start hs).2 p a

theorem GcmAt.decrypt {S : Type} {C : Cipher S} {E : M128 → M128} {iv : List Byte} {n : Nat} {g : Gcm S} (h : GcmAt C E iv n g) (hs : Supported iv)
    (c a t : List Byte) : gcmDecrypt C g c a t = .ok ((gctr (ciph E) (inc32 (jOf E iv (n % 2 ^ 64))) c,
      decide (gctr (ciph E) (jOf E iv (n % 2 ^ 64)) (unblock (ghash (subkey (ciph E)) (pad16 a ++ pad16 c ++ be64 (8 * a.length) ++ be64 (8 * c.length)))) = t)),
      gcmNext E g (jOf E iv (n % 2 ^ 64)) c.length) :=
  gcmDecrypt_spec C g E h.enc h.h (h.start hs).1 _ (jOf_length _ _ _) (h.start hs).2 c a t

/-- Decrypting what was encrypted at the same message number. -/
theorem GcmAt.roundtrip {S : Type} {C : Cipher S} {E : M128 → M128} {iv : List Byte} {n : Nat} {g : Gcm S} (h : GcmAt C E iv n g) (hs : Supported iv)
    (p a : List Byte) : gcmDecrypt C g (aeJ (ciph E) (jOf E iv (n % 2 ^ 64)) p a).1 a (aeJ (ciph E) (jOf E iv (n % 2 ^ 64)) p a).2 =
      .ok ((p, true), gcmNext E g (jOf E iv (n % 2 ^ 64)) p.length) := by
  have key : ∀ (x : Bool) (q : List Byte) (k : Nat), x = true → q = p → k = p.length →
      (Except.ok ((q, x), gcmNext E g (jOf E iv (n % 2 ^ 64)) k) : Out ((List Byte × Bool) × Gcm S)) =
        .ok ((p, true), gcmNext E g (jOf E iv (n % 2 ^ 64)) p.length) := by
    rintro x q k rfl rfl rfl; rfl
  exact (h.decrypt hs _ a _).trans (key _ _ _ (decide_eq_true rfl) (gctr_gctr _ _ _) (gctr_length _ _ _))

theorem gcmNew_at {S : Type} {C : Cipher S} {E : M128 → M128} {key : List Byte} (hC : IsCipher C key E) (z0 : M128) (iv : List Byte) :
    ∃ g, gcmNew C z0 key iv = .ok g ∧ GcmAt C E iv 0 g ∧ g.log = [0#128] := by
  obtain ⟨s, hs, hE⟩ := hC
  exact ⟨_, gcmNew_spec C s E key hs hE z0 iv, ⟨hE, rfl, rfl, rfl⟩, rfl⟩

/-- The blocks enciphered for message `n` of `len` bytes. -/
def msgLog (E : M128 → M128) (iv : List Byte) (n len : Nat) : List M128 := ctrLog (jOf E iv (n % 2 ^ 64)) ((len + 15) / 16 + 1)

theorem ctrLog_cons (j : List Byte) (n : Nat) : ctrLog j (n + 1) = loadBytes j :: ctrLog (inc32 j) n := by
  simp only [ctrLog, List.range_succ_eq_map, List.map_cons, List.map_map]
  rfl

theorem gcmStep_at {S : Type} {C : Cipher S} {E : M128 → M128} {iv : List Byte} {n : Nat} {g : Gcm S} (h : GcmAt C E iv n g) (hs : Supported iv)
    (op : GcmOp) : ∃ g', gcmStep C g op = .ok g' ∧ GcmAt C E iv (n + 1) g' ∧ g'.log = g.log ++ msgLog E iv n op.text.length := by
  cases op with
  | enc p a =>
    refine ⟨_, by rw [gcmStep, h.encrypt hs]; rfl, h.next _ _, ?_⟩
    rw [msgLog, ctrLog_cons]; rfl
  | dec c a t =>
    refine ⟨_, by rw [gcmStep, h.decrypt hs]; rfl, h.next _ _, ?_⟩
    rw [msgLog, ctrLog_cons]; rfl

/-- The blocks enciphered in a session, from message `n` on. -/
def sessionLog (E : M128 → M128) (iv : List Byte) : Nat → List GcmOp → List M128
  | _, [] => []
  | n, op :: ops => msgLog E iv n op.text.length ++ sessionLog E iv (n + 1) ops

theorem gcmSteps_at {S : Type} {C : Cipher S} {E : M128 → M128} {iv : List Byte} (hs : Supported iv) : ∀ (ops : List GcmOp) (n : Nat) (g : Gcm S),
    GcmAt C E iv n g → ∃ g', gcmSteps C g ops = .ok g' ∧ GcmAt C E iv (n + ops.length) g' ∧ g'.log = g.log ++ sessionLog E iv n ops := by
  intro ops
  induction ops with
  | nil => exact fun n g h => ⟨g, rfl, h, by simp [sessionLog]⟩
  | cons op ops ih =>
    intro n g h
    obtain ⟨g1, e1, h1, l1⟩ := gcmStep_at h hs op
    obtain ⟨g2, e2, h2, l2⟩ := ih (n + 1) g1 h1
    refine ⟨g2, by rw [gcmSteps, e1]; exact e2, ?_, ?_⟩
    · rwa [List.length_cons, show n + (ops.length + 1) = n + 1 + ops.length by omega]
    · rw [l2, l1, List.append_assoc, sessionLog]

theorem gcmAfter_at {S : Type} {C : Cipher S} {E : M128 → M128} {key : List Byte} (hC : IsCipher C key E) (z0 : M128) {iv : List Byte} (hs : Supported iv)
    (ops : List GcmOp) : ∃ g, gcmAfter C z0 key iv ops = .ok g ∧ GcmAt C E iv ops.length g ∧ g.log = 0#128 :: sessionLog E iv 0 ops := by
  obtain ⟨g, e, h, l⟩ := gcmNew_at hC z0 iv
  obtain ⟨g', e', h', l'⟩ := gcmSteps_at hs ops 0 g h
  exact ⟨g', by rw [gcmAfter, e]; exact e', by rwa [Nat.zero_add] at h', by rw [l', l]; rfl⟩

/-- With another IV length nothing ever happens. -/
theorem gcmAfter_unsupported {S : Type} {C : Cipher S} {E : M128 → M128} {key : List Byte} (hC : IsCipher C key E) (z0 : M128) {iv : List Byte}
    (hs : ¬ Supported iv) (ops : List GcmOp) : ∃ g, gcmNew C z0 key iv = .ok g ∧ gcmAfter C z0 key iv ops = .ok g ∧ g.iv.length < 12 := by
  obtain ⟨g, e, h, l⟩ := gcmNew_at hC z0 iv
  have hl := h.unsupported hs
  refine ⟨g, e, ?_, hl⟩
  rw [gcmAfter, e]
  show gcmSteps C g ops = .ok g
  induction ops with
  | nil => rfl
  | cons op ops ih =>
    have : gcmStep C g op = .ok g := by
      cases op with
      | enc p a => rw [gcmStep, gcmEncrypt, if_pos hl]; rfl
      | dec c a t => rw [gcmStep, gcmDecrypt, if_pos hl]; rfl
    rw [gcmSteps, this]
    exact ih

/-! ### distinct counter blocks -/

theorem recordNonce_inj {iv : List Byte} (h : iv.length = 12) {m n : Nat} (hm : m < 2 ^ 64) (hn : n < 2 ^ 64) (e : recordNonce iv m = recordNonce iv n) :
    m = n := by
  have h2 : ∀ k, xorBytes iv (recordNonce iv k) = List.replicate 4 0#8 ++ be64 k := by
    intro k
    have hl : (List.replicate (iv.length - 8) 0#8 ++ be64 k).length = 12 := by simp [be64_length, h]
    refine list_ext_getD 0#8 (by simp [xorBytes_length, recordNonce_length h, be64_length, h]) (fun i hi => ?_)
    rw [xorBytes_length, recordNonce_length h] at hi
    rw [xorBytes_getD _ _ _ (by omega) (by rw [recordNonce_length h]; omega), recordNonce, xorBytes_getD _ _ _ (by omega) (by omega), ← BitVec.xor_assoc,
      BitVec.xor_self, BitVec.zero_xor, h]
  have h3 := h2 m
  rw [e, h2 n] at h3
  have h4 := congrArg beNat (List.append_cancel_left h3)
  rw [be64_eq, be64_eq, beNat_i2osp, beNat_i2osp] at h4
  omega

theorem msgLog_mem {E : M128 → M128} {iv : List Byte} (h : iv.length = 12) {n len : Nat} (hl : (len + 15) / 16 < 2 ^ 32 - 1) {b : M128}
    (hb : b ∈ msgLog E iv n len) : ∃ k, k ≤ (len + 15) / 16 ∧ storeu b = recordNonce iv (n % 2 ^ 64) ++ i2osp (1 + k) 4 := by
  obtain ⟨k, hk, rfl⟩ := List.mem_map.mp hb
  have hk := List.mem_range.mp hk
  refine ⟨k, by omega, ?_⟩
  have hmod : (1 + k) % 2 ^ 32 = 1 + k := Nat.mod_eq_of_lt (by omega)
  rw [storeu_load (inc32_iter_length (jOf_length _ _ _) _), inc32_iter (jOf_length _ _ _), jOf, if_pos h, j0, if_pos (recordNonce_length h _)]
  rw [List.take_append_of_le_length (by rw [recordNonce_length h]), List.take_of_length_le (by rw [recordNonce_length h]),
    List.drop_append_of_le_length (by rw [recordNonce_length h]), List.drop_of_length_le (by rw [recordNonce_length h]), List.nil_append,
    show beNat [0#8, 0#8, 0#8, 1#8] = 1 from rfl, hmod]

theorem i2osp4_inj {a b : Nat} (ha : a < 2 ^ 32) (hb : b < 2 ^ 32) (e : i2osp a 4 = i2osp b 4) : a = b := by
  have := congrArg beNat e
  rw [beNat_i2osp, beNat_i2osp] at this
  omega

theorem msgLog_nodup {E : M128 → M128} {iv : List Byte} (h : iv.length = 12) (n len : Nat) (hl : (len + 15) / 16 < 2 ^ 32 - 1) : (msgLog E iv n len).Nodup := by
  refine List.Nodup.map_on ?_ List.nodup_range
  intro a ha b hb e
  have ha := List.mem_range.mp ha
  have hb := List.mem_range.mp hb
  have e2 : inc32^[a] (jOf E iv (n % 2 ^ 64)) = inc32^[b] (jOf E iv (n % 2 ^ 64)) := by
    rw [← storeu_load (inc32_iter_length (jOf_length E iv (n % 2 ^ 64)) a), e, storeu_load (inc32_iter_length (jOf_length _ _ _) b)]
  rw [inc32_iter (jOf_length _ _ _), inc32_iter (jOf_length _ _ _)] at e2
  have := i2osp4_inj (Nat.mod_lt _ (by decide)) (Nat.mod_lt _ (by decide)) (List.append_cancel_left e2)
  omega

theorem sessionLog_mem {E : M128 → M128} {iv : List Byte} : ∀ (ops : List GcmOp) (n : Nat) (b : M128), b ∈ sessionLog E iv n ops →
    ∃ i, ∃ op ∈ ops, i < ops.length ∧ b ∈ msgLog E iv (n + i) op.text.length := by
  intro ops
  induction ops with
  | nil => exact fun n b hb => absurd hb (by simp [sessionLog])
  | cons op ops ih =>
    intro n b hb
    rw [sessionLog, List.mem_append] at hb
    rcases hb with hb | hb
    · exact ⟨0, op, by simp, by simp, hb⟩
    · obtain ⟨i, op', hm, hi, hb⟩ := ih _ _ hb
      exact ⟨i + 1, op', by simp [hm], by simp [hi], by rwa [show n + (i + 1) = n + 1 + i by omega]⟩

theorem sessionLog_nodup {E : M128 → M128} {iv : List Byte} (h : iv.length = 12) : ∀ (ops : List GcmOp) (n : Nat), n + ops.length ≤ 2 ^ 64 →
    (∀ op ∈ ops, (op.text.length + 15) / 16 < 2 ^ 32 - 1) → (sessionLog E iv n ops).Nodup := by
  intro ops
  induction ops with
  | nil => exact fun _ _ _ => List.nodup_nil
  | cons op ops ih =>
    intro n hn hl
    rw [List.length_cons] at hn
    rw [sessionLog, List.nodup_append]
    refine ⟨msgLog_nodup h _ _ (hl op (by simp)), ih (n + 1) (by omega) (fun o ho => hl o (by simp [ho])), ?_⟩
    intro a ha b hb e
    subst e
    obtain ⟨i, op', hm, hi, hb⟩ := sessionLog_mem _ _ _ hb
    obtain ⟨k, _, e1⟩ := msgLog_mem h (hl op (by simp)) ha
    obtain ⟨k', _, e2⟩ := msgLog_mem h (hl op' (by simp [hm])) hb
    rw [e1] at e2
    have e3 := (List.append_inj e2 (by rw [recordNonce_length h, recordNonce_length h])).1
    have := recordNonce_inj h (Nat.mod_lt _ (by decide)) (Nat.mod_lt _ (by decide)) e3
    omega

theorem sessionLog_zero {E : M128 → M128} {iv : List Byte} (h : iv.length = 12) (ops : List GcmOp) (n : Nat)
    (hl : ∀ op ∈ ops, (op.text.length + 15) / 16 < 2 ^ 32 - 1) : 0#128 ∉ sessionLog E iv n ops := by
  intro hb
  obtain ⟨i, op', hm, hi, hb⟩ := sessionLog_mem _ _ _ hb
  obtain ⟨k, hk, e1⟩ := msgLog_mem h (hl op' hm) hb
  have h0 : storeu 0#128 = List.replicate 12 0#8 ++ i2osp 0 4 := by decide +kernel
  rw [h0] at e1
  have e3 := (List.append_inj e1 (by rw [recordNonce_length h, List.length_replicate])).2
  have := hl op' hm
  have := i2osp4_inj (by omega) (by omega) e3
  omega

end Verif.Proof
