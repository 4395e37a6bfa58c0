import Verif.Model.Hkdf
import Verif.Spec.Hkdf
import Verif.Proof.Pss

/-! HMAC and HKDF. -/

namespace Verif.Proof.Hk
open Verif.Model Verif.Proof

theorem hmac_length (c : HashClass) (t k : List Byte) : (hmac c t k).length = hashsize c := by
  unfold hmac; exact hashOf_length c _

theorem resizeTo_length (v : List Byte) (n : Nat) : (resizeTo v n).length = n := by
  simp only [resizeTo, List.length_append, List.length_take, List.length_replicate]; omega

theorem flat_length (c : HashClass) (prk info : List Byte) :
    ∀ i, ((List.range i).flatMap (fun j => Spec.hkdfT (fun a b => hmac c b a) prk info (j + 1))).length = i * hashsize c := by
  intro i
  induction i with
  | zero => simp
  | succ i ih =>
    rw [List.range_succ, List.flatMap_append, List.length_append, ih, List.flatMap_cons, List.flatMap_nil, List.append_nil]
    show _ + (hmac c _ prk).length = _
    rw [hmac_length, Nat.succ_mul]

/-- The loop after `i` passes. -/
theorem expandLoop_spec (c : HashClass) (prk info : List Byte) (len : Nat) : ∀ (k i : Nat),
    (len + hashsize c - 1) / hashsize c ≤ i + k → i ≤ (len + hashsize c - 1) / hashsize c →
    hkdfExpandLoop c prk info len k ((List.range i).flatMap (fun j => Spec.hkdfT (fun a b => hmac c b a) prk info (j + 1)))
      (Spec.hkdfT (fun a b => hmac c b a) prk info i) (i + 1) =
      .ok ((List.range ((len + hashsize c - 1) / hashsize c)).flatMap (fun j => Spec.hkdfT (fun a b => hmac c b a) prk info (j + 1))) := by
  have hp := hashsize_pos c
  have hl : ∀ i, ((List.range i).flatMap (fun j => Spec.hkdfT (fun a b => hmac c b a) prk info (j + 1))).length = i * hashsize c := flat_length c prk _
  have key : ∀ i, i * hashsize c < len ↔ i < (len + hashsize c - 1) / hashsize c := by
    intro i
    rw [Nat.lt_div_iff_mul_lt hp]
    omega
  intro k
  induction k with
  | zero =>
    intro i h1 h2
    have hi : i = (len + hashsize c - 1) / hashsize c := by omega
    rw [hkdfExpandLoop, hl, if_neg (by rw [key]; omega), ← hi]
  | succ k ih =>
    intro i h1 h2
    rw [hkdfExpandLoop, hl]
    by_cases h : i < (len + hashsize c - 1) / hashsize c
    · rw [if_pos ((key i).2 h)]
      have := ih (i + 1) (by omega) (by omega)
      rw [List.range_succ, List.flatMap_append, List.flatMap_cons, List.flatMap_nil, List.append_nil] at this
      exact this
    · have hi : i = (len + hashsize c - 1) / hashsize c := by omega
      rw [if_neg (by rw [key]; exact h), ← hi]

/-- What `HKDF_Expand` returns, for any length. -/
theorem expand_eq (c : HashClass) (prk info : List Byte) (len : Nat) :
    hkdfExpand c prk info len =
      .ok (((List.range ((len + hashsize c - 1) / hashsize c)).flatMap (fun j => Spec.hkdfT (fun a b => hmac c b a) prk info (j + 1))).take len) := by
  have hp := hashsize_pos c
  have h := expandLoop_spec c prk info len len 0 (by
    rw [Nat.zero_add]
    calc (len + hashsize c - 1) / hashsize c ≤ (len * hashsize c + hashsize c - 1) / hashsize c := Nat.div_le_div_right (by
          have : len ≤ len * hashsize c := Nat.le_mul_of_pos_right _ hp
          omega)
      _ ≤ len := by
          rw [Nat.add_sub_assoc (by omega)]
          rw [Nat.mul_comm, Nat.mul_add_div hp, Nat.div_eq_of_lt (by omega)]; simp) (Nat.zero_le _)
  unfold hkdfExpand
  rw [show hkdfExpandLoop c prk info len len [] [] 1 = _ from h, loop_ok_bind]
  have hl : ∀ i, ((List.range i).flatMap (fun j => Spec.hkdfT (fun a b => hmac c b a) prk info (j + 1))).length = i * hashsize c := flat_length c prk _
  have hle : len ≤ (len + hashsize c - 1) / hashsize c * hashsize c := by
    have h1 := Nat.div_add_mod (len + hashsize c - 1) (hashsize c)
    have h2 := Nat.mod_lt (len + hashsize c - 1) hp
    rw [Nat.mul_comm] at h1
    omega
  show Except.ok (resizeTo _ len) = _
  unfold resizeTo
  rw [hl, Nat.sub_eq_zero_of_le hle]
  simp

/-- The library's HMAC of a hash whose block is twice the digest, for a key that fits into a block. -/
theorem hmac_standard {c : HashClass} (hc : Spec.blockLength c = 2 * hashsize c) (text key : List Byte) (hk : key.length ≤ Spec.blockLength c)
    (ht : text.length < 2 ^ 60) : hmac c text key = Spec.hmac c key text := by
  have hs : hashsize c ≤ 64 := by cases c <;> decide
  have hr : resizeTo key (hashsize c * 2) = key ++ List.replicate (Spec.blockLength c - key.length) 0x00#8 := by
    unfold resizeTo
    rw [hc, List.take_of_length_le (by omega), Nat.mul_comm]
  have hl : (key ++ List.replicate (Spec.blockLength c - key.length) 0x00#8).length = Spec.blockLength c := by simp; omega
  unfold hmac Spec.hmac Spec.rfc2104
  rw [hr, if_neg (by omega)]
  simp only
  rw [hashOf_eq c (_ ++ hashOf c _) (by simp only [List.length_append, List.length_map, hl, hashOf_length]; omega),
    hashOf_eq c (_ ++ text) (by simp only [List.length_append, List.length_map, hl]; omega)]

theorem hkdfT_length_le (c : HashClass) (prk info : List Byte) (i : Nat) :
    (Spec.hkdfT (fun a b => hmac c b a) prk info i).length ≤ hashsize c := by
  cases i with
  | zero => exact Nat.zero_le _
  | succ i => exact le_of_eq (hmac_length c _ _)

theorem hkdfT_standard {c : HashClass} (hc : Spec.blockLength c = 2 * hashsize c) (prk info : List Byte) (hk : prk.length ≤ Spec.blockLength c)
    (hi : info.length < 2 ^ 59) (i : Nat) : Spec.hkdfT (fun a b => hmac c b a) prk info i = Spec.hkdfT (Spec.hmac c) prk info i := by
  have hs : hashsize c ≤ 64 := by cases c <;> decide
  induction i with
  | zero => rfl
  | succ i ih =>
    have := hkdfT_length_le c prk info i
    rw [Spec.hkdfT, Spec.hkdfT, ← ih]
    exact hmac_standard hc _ _ hk (by simp only [List.length_append, List.length_singleton]; omega)

/-- HKDF-Expand over the library's HMAC and over the standard one. -/
theorem expand_standard {c : HashClass} (hc : Spec.blockLength c = 2 * hashsize c) (prk info : List Byte) (hk : prk.length ≤ Spec.blockLength c)
    (hi : info.length < 2 ^ 59) (L : Nat) :
    Spec.hkdfExpand (fun a b => hmac c b a) (hashsize c) prk info L = Spec.hkdfExpand (Spec.hmac c) (hashsize c) prk info L := by
  unfold Spec.hkdfExpand
  simp only [hkdfT_standard hc prk info hk hi]

theorem expand_ok (c : HashClass) (prk info : List Byte) (len : Nat) {r : List Byte} (h : len ≤ 255 * hashsize c) :
    Spec.hkdfExpand (fun a b => hmac c b a) (hashsize c) prk info len = some r → hkdfExpand c prk info len = .ok r := by
  unfold Spec.hkdfExpand
  rw [if_pos h, expand_eq]
  intro e
  rw [Option.some.inj e]

theorem label_some {label context : List Byte} {len : Nat} {info : List Byte} (h : Spec.hkdfLabel len label context = some info) :
    hkdfLabel label context len = info ∧ len < 2 ^ 16 ∧ 1 ≤ label.length ∧ label.length ≤ 249 ∧ context.length ≤ 255 ∧ info.length ≤ 514 := by
  unfold Spec.hkdfLabel at h
  simp only at h
  split at h
  next hc =>
    have h6 : (ascii "tls13 ").length = 6 := by decide
    simp only [List.length_append, h6] at hc
    have e := Option.some.inj h
    refine ⟨?_, hc.1, by omega, by omega, hc.2.2.2, ?_⟩
    · rw [← e]
      unfold hkdfLabel Spec.opaque8
      have e1 : BitVec.ofNat 8 ((len >>> 8) &&& 0xFF) = BitVec.ofNat 8 (len / 256) := by
        apply BitVec.eq_of_toNat_eq
        rw [BitVec.toNat_ofNat, BitVec.toNat_ofNat, show (0xFF : Nat) = 2 ^ 8 - 1 from rfl, Nat.and_two_pow_sub_one_eq_mod, Nat.shiftRight_eq_div_pow]
        simp
      have e2 : BitVec.ofNat 8 (len &&& 0xFF) = BitVec.ofNat 8 (len % 256) := by
        rw [show (0xFF : Nat) = 2 ^ 8 - 1 from rfl, Nat.and_two_pow_sub_one_eq_mod]
      simp only [e1, e2, List.cons_append, List.nil_append, List.append_assoc]
    · rw [← e]
      simp only [Spec.opaque8, List.length_append, List.length_cons, List.length_nil, h6]
      omega
  next => exact nomatch h

theorem digest_empty (c : HashClass) : hdata c (hnew0 c) = Spec.digest c [] :=
  hdata_spec (habs_new c _ (by simp)) (fun _ => by simp) (fun _ => by simp)

theorem digest_empty_length (c : HashClass) : (Spec.digest c []).length = hashsize c := by
  rw [← digest_empty]; exact Props.hdata_length _ _

/-- HKDF-Expand-Label, whenever the RFC defines it. -/
theorem expandLabel_some {c : HashClass} {prk label context : List Byte} {len : Nat} {r : List Byte}
    (h : Spec.expandLabel (fun a b => hmac c b a) (hashsize c) prk label context len = some r) :
    hkdfExpandLabel c prk label context len = .ok r := by
  unfold Spec.expandLabel at h
  rw [Option.bind_eq_bind, Option.bind_eq_some_iff] at h
  obtain ⟨info, h1, h2⟩ := h
  unfold hkdfExpandLabel
  rw [(label_some h1).1]
  have h3 : len ≤ 255 * hashsize c := by
    by_contra hc
    unfold Spec.hkdfExpand at h2
    rw [if_neg hc] at h2
    exact nomatch h2
  exact expand_ok c prk info len h3 h2

/-- The RFC defines it within the limits. -/
theorem expandLabel_defined (mac : List Byte → List Byte → List Byte) (hLen : Nat) (prk label context : List Byte) (len : Nat) (h1 : 1 ≤ label.length)
    (h2 : label.length ≤ 249) (h3 : context.length ≤ 255) (h4 : len < 2 ^ 16) (h5 : len ≤ 255 * hLen) :
    ∃ r, Spec.expandLabel mac hLen prk label context len = some r := by
  have h6 : (ascii "tls13 ").length = 6 := by decide
  unfold Spec.expandLabel Spec.hkdfLabel Spec.hkdfExpand
  simp only [List.length_append, h6]
  rw [if_pos ⟨h4, by omega, by omega, h3⟩, Option.bind_eq_bind, Option.bind_some, if_pos h5]
  exact ⟨_, rfl⟩

theorem expandLabel_standard {c : HashClass} (hc : Spec.blockLength c = 2 * hashsize c) (prk label context : List Byte) (len : Nat)
    (hk : prk.length ≤ Spec.blockLength c) :
    Spec.expandLabel (fun a b => hmac c b a) (hashsize c) prk label context len = Spec.expandLabel (Spec.hmac c) (hashsize c) prk label context len := by
  unfold Spec.expandLabel
  rw [Option.bind_eq_bind]
  cases h : Spec.hkdfLabel len label context with
  | none => rfl
  | some info =>
    rw [Option.bind_some, Option.bind_some, expand_standard hc prk info hk (by have := (label_some h).2.2.2.2.2; omega)]

theorem expandLabel_length {c : HashClass} {prk label context : List Byte} {len : Nat} {r : List Byte}
    (h : Spec.expandLabel (fun a b => hmac c b a) (hashsize c) prk label context len = some r) : r.length = len := by
  have e := expandLabel_some h
  unfold hkdfExpandLabel at e
  have hp := hashsize_pos c
  rw [expand_eq] at e
  rw [← Except.ok.inj e, List.length_take]
  have hl : ∀ i, ((List.range i).flatMap (fun j => Spec.hkdfT (fun a b => hmac c b a) prk (hkdfLabel label context len) (j + 1))).length = i * hashsize c := flat_length c prk _
  have h1 := Nat.div_add_mod (len + hashsize c - 1) (hashsize c)
  have h2 := Nat.mod_lt (len + hashsize c - 1) hp
  rw [Nat.mul_comm] at h1
  rw [hl]
  omega

end Verif.Proof.Hk
