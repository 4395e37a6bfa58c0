import Verif.Props.Rsa
import Verif.Spec.PssSize
import Verif.Proof.Prime25519

/-! C97, C98: PSS signatures for moduli whose size is not a whole number of bytes. -/

namespace Verif.Props

open Verif.Model Verif.Spec Verif.Proof

theorem pssVerify_last {H : List Byte → List Byte} {hLen sLen emBits : Nat} {M EM : List Byte} (h : EM.getLast? ≠ some 0xbc#8) :
    emsaPssVerify H hLen sLen M EM emBits = false := by
  rw [emsaPssVerify]
  dsimp only
  split
  · rfl
  · split
    · rfl
    · first
      | rfl
      | rw [if_pos h]

theorem last_i2osp (m k : Nat) : (i2osp m (k + 1)).getLast? = some (BitVec.ofNat 8 m) := by
  rw [i2osp_succ, List.getLast?_append_of_ne_nil _ (by simp)]
  simp

/-- What `validatePssSignature` computes, for signatures of any length that can hold a hash and a salt, whatever the size of the modulus. -/
theorem validatePss_any {w : Nat} {kp : RsaPub} {n e : Nat} (hp : PubOk w kp n e) (hodd : n % 2 = 1) (c : HashClass) (sLen : Nat)
    (message sig : List Byte) (hfit : sig.length ≤ 4 * w) (hk : hashsize c + sLen + 2 ≤ sig.length) (hk2 : sig.length ≤ 2 ^ 32)
    (hm : message.length < 2 ^ 61) :
    validatePss (32 * w) kp c sLen message sig =
      .ok (emsaPssVerify (digest c) (hashsize c) sLen message (i2osp (beNat sig ^ e % n) sig.length) (8 * sig.length - 1)) := by
  obtain ⟨lb, vb⟩ := bnOfBytes_rev w sig hfit
  obtain ⟨r, er, lr, vr⟩ := rsaep_spec hp _ lb
  rw [vb] at vr
  rw [validatePss_eq, er, loop_ok_bind, asBytes_i2osp, pssCheck_spec c sLen message _ hm (by rw [i2osp_length]; exact hk) (by rw [i2osp_length]; exact hk2)]
  rw [i2osp_length]
  refine congrArg Except.ok ?_
  rw [vr]
  by_cases h0 : beNat sig ^ e % n = 0
  · rw [h0, pssVerify_zero (by omega), canonN]
    split
    · obtain ⟨j, hj⟩ : ∃ j, sig.length = j + 1 := ⟨sig.length - 1, by omega⟩
      rw [hj]
      apply pssVerify_last
      rw [last_i2osp]
      intro h
      have := congrArg BitVec.toNat (Option.some.inj h)
      rw [BitVec.toNat_ofNat] at this
      have h2 : (0xbc#8 : Byte).toNat = 188 := rfl
      omega
    · rw [h0]; exact pssVerify_zero (by omega)
  · rw [canonN_of_mod h0]

/-- The verdict depends on the hash of short inputs only. -/
theorem pssVerify_congr {H H' : List Byte → List Byte} (hLen sLen emBits : Nat) (M EM : List Byte) (h : ∀ m, m.length < 2 ^ 61 → H m = H' m)
    (hM : M.length < 2 ^ 61) (hh : hLen < 2 ^ 32) (hl : (H M).length < 2 ^ 32) (hE : EM.length < 2 ^ 32) :
    emsaPssVerify H hLen sLen M EM emBits = emsaPssVerify H' hLen sLen M EM emBits := by
  have h1 : ∀ seed L, seed.length ≤ hLen → mgf1 H hLen seed L = mgf1 H' hLen seed L := by
    intro seed L hs
    unfold mgf1
    split
    · rfl
    · have : (fun counter => H (seed ++ i2osp counter 4)) = fun counter => H' (seed ++ i2osp counter 4) := by
        funext i
        exact h _ (by rw [List.length_append, i2osp_length]; omega)
      rw [this]
  unfold emsaPssVerify
  dsimp only
  rw [h1 _ _ (by simp), ← h M hM]
  split
  · rfl
  · split
    · rfl
    · split
      · rfl
      · split
        · rfl
        · split
          · rfl
          · rw [h _ (by
              simp only [List.length_append, List.length_replicate, List.length_drop, clearLeft_length, xorOctets, List.length_zipWith, List.length_take]
              omega)]

/-- Clearing more bits than the code does makes no difference to a valid data block. -/
theorem clear_more (z : Nat) (hz : 1 ≤ z) (hz2 : z ≤ 7) (X : List Byte) (j : Nat) (hX : j < X.length)
    (h : (clearLeft 1 X).take (j + 1) = List.replicate j 0#8 ++ [1#8]) : clearLeft z X = clearLeft 1 X := by
  match X, hX with
  | b :: t, _ =>
    have hb : b.toNat % 128 ≤ 1 := by
      have h0 := congrArg (fun l => (l.headD 0#8).toNat) h
      simp only [clearLeft, List.take_succ_cons, List.headD_cons, BitVec.toNat_ofNat] at h0
      rw [show 2 ^ (8 - 1) = 128 by decide, Nat.mod_eq_of_lt (a := b.toNat % 128) (by omega)] at h0
      cases j with
      | zero => simp at h0; omega
      | succ j => simp [List.replicate_succ] at h0; omega
    rw [clearLeft, clearLeft]
    have hd : 2 ^ (8 - z) ∣ 128 := by
      rw [show (128 : Nat) = 2 ^ 7 by decide]
      exact pow_dvd_pow 2 (by omega)
    have h2 : 2 ≤ 2 ^ (8 - z) := by
      calc 2 = 2 ^ 1 := rfl
        _ ≤ 2 ^ (8 - z) := Nat.pow_le_pow_right (by decide) (by omega)
    have : b.toNat % 2 ^ (8 - z) = b.toNat % 2 ^ (8 - 1) := by
      rw [show 2 ^ (8 - 1) = 128 by decide, ← Nat.mod_mod_of_dvd _ hd, Nat.mod_eq_of_lt (by omega)]
    rw [this]

theorem clear_of_lt (z : Nat) (hz : z ≤ 8) (l : List Byte) (h : beNat l < 2 ^ (8 * l.length - z)) : clearLeft z l = l := by
  cases l with
  | nil => rfl
  | cons b t =>
    rw [beNat_cons, List.length_cons, show 8 * (t.length + 1) - z = (8 - z) + 8 * t.length by omega, pow_add] at h
    have hb : b.toNat < 2 ^ (8 - z) := by
      by_contra hc
      have := Nat.mul_le_mul_right (2 ^ (8 * t.length)) (not_lt.mp hc)
      omega
    rw [clearLeft, Nat.mod_eq_of_lt hb, BitVec.ofNat_toNat, BitVec.setWidth_eq]

/-- What the code accepts is accepted by the standard, if the number is small enough for it. -/
theorem pssVerify_more {H : List Byte → List Byte} {hLen sLen z : Nat} {M EM : List Byte} (hz : 1 ≤ z) (hz2 : z ≤ 7) (hk : hLen + sLen + 2 ≤ EM.length)
    (hlt : beNat EM < 2 ^ (8 * EM.length - z)) (h : emsaPssVerify H hLen sLen M EM (8 * EM.length - 1) = true) :
    emsaPssVerify H hLen sLen M EM (8 * EM.length - z) = true := by
  have e1 : (8 * EM.length - 1 + 7) / 8 = EM.length := by omega
  have e2 : 8 * EM.length - (8 * EM.length - 1) = 1 := by omega
  have e3 : (8 * EM.length - z + 7) / 8 = EM.length := by omega
  have e4 : 8 * EM.length - (8 * EM.length - z) = z := by omega
  unfold emsaPssVerify at h ⊢
  simp only [e1, e2] at h
  simp only [e3, e4]
  rw [if_neg (by omega), if_neg (by simp)] at h ⊢
  by_cases h3 : EM.getLast? = some 0xbc#8
  swap
  · rw [if_pos h3] at h; exact absurd h (by decide)
  rw [if_neg (not_not.mpr h3)] at h ⊢
  have hc : clearLeft z (EM.take (EM.length - hLen - 1)) = EM.take (EM.length - hLen - 1) := by
    have := clear_of_lt z (by omega) EM hlt
    apply List.append_cancel_right (bs := EM.drop (EM.length - hLen - 1))
    rw [List.take_append_drop]
    conv_rhs => rw [← this]
    conv_rhs => rw [← List.take_append_drop (EM.length - hLen - 1) EM]
    match hE : EM.take (EM.length - hLen - 1) with
    | [] =>
      have := congrArg List.length hE
      rw [List.length_take, List.length_nil] at this
      omega
    | b :: t => rfl
  rw [if_neg (not_not.mpr hc)]
  split at h
  · exact absurd h (by decide)
  next hc1 =>
  cases hm : mgf1 H hLen (List.take hLen (List.drop (EM.length - hLen - 1) EM)) (EM.length - hLen - 1) with
  | none => rw [hm] at h; exact absurd h Bool.false_ne_true
  | some mask =>
    rw [hm] at h
    dsimp only at h ⊢
    split at h
    · exact absurd h (by decide)
    next hp =>
    have hp := not_not.mp hp
    have hj : EM.length - hLen - sLen - 1 = EM.length - hLen - sLen - 2 + 1 := by omega
    have hX : EM.length - hLen - sLen - 2 < (xorOctets (EM.take (EM.length - hLen - 1)) mask).length := by
      have := congrArg List.length hp
      simp only [List.length_take, clearLeft_length, List.length_append, List.length_replicate, List.length_singleton] at this
      omega
    have := clear_more z hz hz2 _ _ hX (by rw [← hj]; exact hp)
    rw [this, if_neg (not_not.mpr hp)]
    exact h

/-- The encoding depends on the hash of short inputs only. -/
theorem pssEncode_congr {H H' : List Byte → List Byte} (hLen emBits : Nat) (M salt : List Byte) (h : ∀ m, m.length < 2 ^ 61 → H m = H' m)
    (hM : M.length < 2 ^ 61) (hl : (H M).length < 2 ^ 32) (hs : salt.length < 2 ^ 32) (hl2 : ∀ m, m.length < 2 ^ 61 → (H m).length < 2 ^ 32) :
    emsaPssEncode H hLen M salt emBits = emsaPssEncode H' hLen M salt emBits := by
  have h1 : ∀ seed L, seed.length < 2 ^ 32 → mgf1 H hLen seed L = mgf1 H' hLen seed L := by
    intro seed L hs
    unfold mgf1
    split
    · rfl
    · have : (fun counter => H (seed ++ i2osp counter 4)) = fun counter => H' (seed ++ i2osp counter 4) := by
        funext i
        exact h _ (by rw [List.length_append, i2osp_length]; omega)
      rw [this]
  have hl3 : (List.replicate 8 0#8 ++ H M ++ salt).length < 2 ^ 61 := by
    simp only [List.length_append, List.length_replicate]; omega
  unfold emsaPssEncode
  dsimp only
  rw [h1 _ _ (hl2 _ hl3), ← h M hM, ← h _ hl3]

/-! ### C97 -/

/-- C97, the full claim: whatever the size of the modulus, PSS signatures made by the library are accepted by it. -/
def C97_claim : Prop := ∀ (w : Nat) (n e d : List U32) (c : HashClass) (message salt : List Byte) (bits : Nat), 0 < w → n.length = w → e.length = w →
  d.length = w → ValidPair (value n) (value e) (value d) → 0 < bits → 2 ^ (bits - 1) ≤ value n → value n < 2 ^ bits → salt.length = digestLength c →
  2 * digestLength c + 2 ≤ bits / 8 → bits ≤ 2 ^ 32 → message.length < 2 ^ 61 →
  ∃ sig, (do let ks ← rsaPrivNew (32 * w) n d; signPss (32 * w) ks c (digest c message) salt) = .ok sig ∧
    (do let kp ← rsaPubNew (32 * w) n e; validatePss (32 * w) kp c (digestLength c) message sig) = .ok true

/-- C97, what holds: the signer encodes the message for `8·⌊bits / 8⌋ - 1` bits, and the signature is `EM^d mod n` with the bits above `8·⌊bits / 8⌋` cut
off. It is accepted if none of them was set. Missing: acceptance when they were, see `C97_false`. -/
theorem C97_partial (w : Nat) (n e d : List U32) (c : HashClass) (message salt : List Byte) (bits : Nat) (hw : 0 < w) (hn : n.length = w)
    (he : e.length = w) (hd : d.length = w) (hv : ValidPair (value n) (value e) (value d)) (hb : 0 < bits) (hlo : 2 ^ (bits - 1) ≤ value n)
    (hhi : value n < 2 ^ bits) (hs : salt.length = digestLength c) (hk : 2 * digestLength c + 2 ≤ bits / 8) (hk2 : bits ≤ 2 ^ 32)
    (hm : message.length < 2 ^ 61) :
    ∃ EM sig, emsaPssEncode (digest c) (digestLength c) message salt (8 * (bits / 8) - 1) = some EM ∧ beNat EM < value n ∧
      (do let ks ← rsaPrivNew (32 * w) n d; signPss (32 * w) ks c (digest c message) salt) = .ok sig ∧
      sig = i2osp (beNat EM ^ value d % value n) (bits / 8) ∧
      (beNat EM ^ value d % value n < 2 ^ (8 * (bits / 8)) →
        (do let kp ← rsaPubNew (32 * w) n e; validatePss (32 * w) kp c (digestLength c) message sig) = .ok true) := by
  obtain ⟨_, hd0, h1, hodd⟩ := validPair_pos hv
  obtain ⟨kp, ekp, _, _, okp⟩ := rsaPubNew_spec w hw n e hn he hodd h1
  obtain ⟨ks, eks, _, _, oks⟩ := rsaPrivNew_spec w hw n d hn hd hodd h1
  rw [← hashsize_eq] at hs hk ⊢
  have hdl := digest_length c message hm
  have hle := hashsize_le c
  have hbits : ks.actualN = bits := bitlen_unique oks.lo oks.hi hlo hhi oks.pos hb
  have hfit : bits ≤ 32 * w := by have := oks.fit; omega
  set k := bits / 8 with hkdef
  obtain ⟨mask, m1, m2, eg⟩ := pssEncoded c (digest c message) salt k (by omega) (by omega) (by omega)
  obtain ⟨b, hbc, hbi⟩ := pssCheck_encoded c message (digest c message) salt mask k hm (by omega) (by omega) (by omega) m1 m2
  have hbt : b = true := hbi.mpr rfl
  subst hbt
  have lD := pssDB_length (k - hashsize c - 1) salt (by omega)
  have lDm : (xorOctets (pssDB (k - hashsize c - 1) salt) mask).length = k - hashsize c - 1 := by rw [xorOctets_length _ _ (by omega), lD]
  have lH : (digest c (List.replicate 8 0#8 ++ digest c message ++ salt)).length = hashsize c := digest_length c _ (by simp; omega)
  have henc : emsaPssEncode (digest c) (hashsize c) message salt (8 * k - 1) =
      some (clearLeft 1 (xorOctets (pssDB (k - hashsize c - 1) salt) mask) ++ digest c (List.replicate 8 0#8 ++ digest c message ++ salt) ++ [0xbc#8]) := by
    obtain ⟨mask', e1, -, sp⟩ := mgf_spec c (digest c (List.replicate 8 0#8 ++ digest c message ++ salt)) (k - hashsize c - 1) (by omega) (by omega)
    obtain rfl : mask' = mask := Except.ok.inj (e1.symm.trans m1)
    unfold emsaPssEncode
    dsimp only
    rw [show (8 * k - 1 + 7) / 8 = k by omega, if_neg (by omega), sp, show 8 * k - (8 * k - 1) = 1 by omega]
    dsimp only
    rw [pssDB, show k - salt.length - hashsize c - 2 = k - hashsize c - 1 - salt.length - 1 by omega]
  have hclear : clearLeft 1 (clearLeft 1 (xorOctets (pssDB (k - hashsize c - 1) salt) mask) ++ digest c (List.replicate 8 0#8 ++ digest c message ++ salt) ++ [0xbc#8]) =
      clearLeft 1 (xorOctets (pssDB (k - hashsize c - 1) salt) mask) ++ digest c (List.replicate 8 0#8 ++ digest c message ++ salt) ++ [0xbc#8] := by
    rw [List.append_assoc, clearLeft_append _ _ (by rw [clearLeft_length]; omega), clearLeft_idem]
  have lEM : (clearLeft 1 (xorOctets (pssDB (k - hashsize c - 1) salt) mask) ++ digest c (List.replicate 8 0#8 ++ digest c message ++ salt) ++ [0xbc#8]).length = k := by
    simp only [List.length_append, clearLeft_length, lDm, lH, List.length_singleton]; omega
  have hlast : (clearLeft 1 (xorOctets (pssDB (k - hashsize c - 1) salt) mask) ++ digest c (List.replicate 8 0#8 ++ digest c message ++ salt) ++ [0xbc#8]).getLast? =
      some 0xbc#8 := by rw [List.getLast?_append_of_ne_nil _ (by simp)]; rfl
  generalize clearLeft 1 (xorOctets (pssDB (k - hashsize c - 1) salt) mask) ++ digest c (List.replicate 8 0#8 ++ digest c message ++ salt) ++ [0xbc#8] = EM at *
  have hEMlt : beNat EM < value n := by
    have := clear_lt EM (by omega) hclear
    rw [lEM] at this
    exact lt_of_lt_of_le this (le_trans (Nat.pow_le_pow_right (by decide) (by omega)) hlo)
  obtain ⟨lb1, vb1⟩ := bnOfBytes_rev w EM (by omega)
  obtain ⟨r, er, lr, vr⟩ := rsadp_spec oks (bnOfBytes (32 * w) EM.reverse) lb1
  rw [vb1] at vr
  have hpos : beNat EM ≠ 0 := by
    intro h0
    have : EM = i2osp 0 k := by rw [← lEM, ← h0, i2osp_beNat]
    obtain ⟨j, hj⟩ : ∃ j, k = j + 1 := ⟨k - 1, by omega⟩
    rw [this, hj, last_i2osp] at hlast
    exact absurd hlast (by decide)
  have hmod : beNat EM ^ value d % value n ≠ 0 := by
    intro h0
    have h3 : (beNat EM ^ value d) ^ value e ≡ beNat EM [MOD value n] := by
      rw [← pow_mul, Nat.mul_comm]; exact rsa_identity hv _
    have h4 : beNat EM ^ value d ≡ 0 [MOD value n] := h0
    have h5 := (h4.pow (value e)).symm.trans h3
    rw [zero_pow (validPair_pos hv).1] at h5
    have := Nat.ModEq.eq_of_lt_of_lt h5 (by omega) hEMlt
    omega
  rw [canonN_of_mod hmod] at vr
  refine ⟨EM, _, henc, hEMlt, ?_, rfl, fun hsmall => ?_⟩
  · rw [eks, loop_ok_bind, signPss_eq, hbits, ← hkdef, eg, loop_ok_bind, er, loop_ok_bind, asBytes_i2osp, vr]; rfl
  · rw [ekp, loop_ok_bind, validatePss_any okp hodd c _ message _ (by rw [i2osp_length]; omega) (by rw [i2osp_length]; omega) (by rw [i2osp_length]; omega) hm]
    rw [i2osp_length, beNat_i2osp, Nat.mod_eq_of_lt hsmall]
    have h3 : (beNat EM ^ value d % value n) ^ value e % value n = beNat EM := by
      rw [← Nat.pow_mod, ← pow_mul, Nat.mul_comm]
      have h4 : beNat EM ^ (value e * value d) % value n = beNat EM % value n := rsa_identity hv _
      rw [h4, Nat.mod_eq_of_lt hEMlt]
    rw [h3, ← lEM, i2osp_beNat]
    rw [pssCheck_spec c _ message EM hm (by rw [lEM]; omega) (by omega), hs] at hbc
    exact hbc

/-- The private exponent that belongs to `(2^127 - 1)(2^607 - 1)` and 5. -/
def oddD : Nat := 573767915420082285094422113971733915086863804403917121222156732536515970266026449279580327780625216677256663976021481936645209493191428184039816126089455703968840103188200008758763085853656960395772123798586102234106981

theorem odd_pair : ValidPair ((2 ^ 127 - 1) * (2 ^ 607 - 1)) 5 oddD :=
  ⟨2 ^ 127 - 1, 2 ^ 607 - 1, prime_127, prime_607, by decide +kernel, by decide +kernel, by decide +kernel, rfl, by decide +kernel⟩

def oddN : List U32 := bnOfBytes 736 (i2osp ((2 ^ 127 - 1) * (2 ^ 607 - 1)) 92).reverse

def oddE : List U32 := bnOfU32 736 5#32

def oddDigits : List U32 := bnOfBytes 736 (i2osp oddD 92).reverse

theorem oddN_value : value oddN = (2 ^ 127 - 1) * (2 ^ 607 - 1) := by decide +kernel

theorem oddE_value : value oddE = 5 := by decide +kernel

theorem oddDigits_value : value oddDigits = oddD := by decide +kernel

example : ValidPair (value oddN) (value oddE) (value oddDigits) ∧ 2 ^ 733 ≤ value oddN ∧ value oddN < 2 ^ 734 ∧ 2 * digestLength .sha2_256 + 2 ≤ 734 / 8 := by
  rw [oddN_value, oddE_value, oddDigits_value]
  exact ⟨odd_pair, by decide +kernel, by decide +kernel, by decide⟩

/-- The encoding of the empty message with a salt of zeros, as a number. -/
def oddEM : Nat := 595487935166847191313787649573962009355626560597231965750300305742218319223273260397758296610320558381398716719476110680324387996935031337954780412462330943201209777144578002576570464018310323974427225909801450280612796

theorem odd_encode : emsaPssEncode (digest .sha2_256) 32 [] (List.replicate 32 0#8) (8 * 91 - 1) = some (i2osp oddEM 91) := by
  rw [pssEncode_congr (H' := hashOf .sha2_256) 32 _ [] _ (fun m hm => (hashOf_eq .sha2_256 m hm).symm) (by decide)
    (by rw [digest_length .sha2_256 [] (by decide)]; decide) (by decide) (fun m hm => by rw [digest_length .sha2_256 m hm]; decide)]
  decide +kernel

/-- The claim fails: the modulus `(2^127 - 1)(2^607 - 1)` of 734 bits, exponents 5 and 1/5, SHA-256, the empty message and a salt of zeros. -/
theorem C97_false : ¬ C97_claim := by
  intro h
  have hv : ValidPair (value oddN) (value oddE) (value oddDigits) := by rw [oddN_value, oddE_value, oddDigits_value]; exact odd_pair
  have lN : oddN.length = 23 := by decide +kernel
  have lE : oddE.length = 23 := by decide +kernel
  have lD : oddDigits.length = 23 := by decide +kernel
  have b1 : 2 ^ (734 - 1) ≤ value oddN := by rw [oddN_value]; decide +kernel
  have b2 : value oddN < 2 ^ 734 := by rw [oddN_value]; decide +kernel
  obtain ⟨EM, sig, e1, -, e2, e3, -⟩ := C97_partial 23 oddN oddE oddDigits .sha2_256 [] (List.replicate 32 0#8) 734 (by decide) lN lE lD hv (by decide) b1 b2
    (by decide) (by decide) (by decide) (by decide)
  obtain ⟨sig', e4, e5⟩ := h 23 oddN oddE oddDigits .sha2_256 [] (List.replicate 32 0#8) 734 (by decide) lN lE lD hv (by decide) b1 b2
    (by decide) (by decide) (by decide) (by decide)
  obtain rfl : sig' = sig := Except.ok.inj (e4.symm.trans e2)
  obtain rfl : EM = i2osp oddEM 91 := Option.some.inj (e1.symm.trans odd_encode)
  obtain ⟨kp, ekp, _, _, okp⟩ := rsaPubNew_spec 23 (by decide) oddN oddE lN lE (by rw [oddN_value]; decide +kernel) (by rw [oddN_value]; decide +kernel)
  have hS : beNat (i2osp oddEM 91) ^ value oddDigits % value oddN = 12876704818654912456186781512545803862555294611527459538224651213890450829079588623456127469162292929521618316982141626960817878893166229770236383815493126246395179186995154060941683953785821936613773485963439618113856893 := by
    rw [oddN_value, oddDigits_value, ← powMod_eq _ 736 _ _ (by decide +kernel)]
    decide +kernel
  rw [hS] at e3
  subst e3
  rw [ekp, loop_ok_bind, validatePss_any okp (by rw [oddN_value]; decide +kernel) .sha2_256 _ [] _ (by rw [i2osp_length]; decide) (by rw [i2osp_length]; decide)
    (by rw [i2osp_length]; decide) (by decide)] at e5
  rw [pssVerify_last] at e5
  · exact absurd (Except.ok.inj e5) (by decide)
  · rw [oddE_value, oddN_value]
    decide +kernel

/-! ### C98 -/

/-- C98, the full claim: for a modulus of any size the verifier computes RSASSA-PSS-VERIFY with a salt of hash length. -/
def C98_claim : Prop := ∀ (w : Nat) (n e : List U32) (c : HashClass) (message sig : List Byte) (bits : Nat), 0 < w → n.length = w → e.length = w →
  value n % 2 = 1 → 1 < bits → 2 ^ (bits - 1) ≤ value n → value n < 2 ^ bits → 2 * digestLength c + 3 ≤ sig.length → bits ≤ 2 ^ 32 →
  message.length < 2 ^ 61 → sig.length = (bits + 7) / 8 → beNat sig < value n →
  (do let k ← rsaPubNew (32 * w) n e; validatePss (32 * w) k c (digestLength c) message sig) =
    .ok (rsassaPssVerify c (digestLength c) (value n) (value e) bits message sig)

/-- C98, what holds. First, the code's verdict for every modulus and every signature long enough for hash and salt: it takes the modulus to have eight bits for
every byte of the signature. Second, that is the standard for moduli of a whole number of bytes. Third, if the size is not a multiple of 8 and not one more
than a multiple of 8, an accepted signature is good, provided its power has fewer bits than the modulus. Missing: good signatures that are refused. -/
theorem C98_partial (w : Nat) (n e : List U32) (c : HashClass) (message sig : List Byte) (hw : 0 < w) (hn : n.length = w) (he : e.length = w)
    (hodd : value n % 2 = 1) (h1 : 1 < value n) (hfit : sig.length ≤ 4 * w) (hk : 2 * digestLength c + 2 ≤ sig.length) (hk2 : sig.length ≤ 2 ^ 32)
    (hm : message.length < 2 ^ 61) :
    (do let k ← rsaPubNew (32 * w) n e; validatePss (32 * w) k c (digestLength c) message sig) =
      .ok (emsaPssVerify (digest c) (digestLength c) (digestLength c) message (i2osp (beNat sig ^ value e % value n) sig.length) (8 * sig.length - 1)) ∧
    (∀ bits, sig.length = (bits + 7) / 8 → bits % 8 = 0 → value n < 2 ^ bits → beNat sig < value n →
      (do let k ← rsaPubNew (32 * w) n e; validatePss (32 * w) k c (digestLength c) message sig) =
        .ok (rsassaPssVerify c (digestLength c) (value n) (value e) bits message sig)) ∧
    (∀ bits, sig.length = (bits + 7) / 8 → 1 < bits % 8 → beNat sig < value n → beNat sig ^ value e % value n < 2 ^ (bits - 1) →
      (do let k ← rsaPubNew (32 * w) n e; validatePss (32 * w) k c (digestLength c) message sig) = .ok true →
      rsassaPssVerify c (digestLength c) (value n) (value e) bits message sig = true) := by
  obtain ⟨kp, ekp, _, _, okp⟩ := rsaPubNew_spec w hw n e hn he hodd h1
  have hdl := hashsize_eq c
  have hgen : (do let k ← rsaPubNew (32 * w) n e; validatePss (32 * w) k c (digestLength c) message sig) =
      .ok (emsaPssVerify (digest c) (digestLength c) (digestLength c) message (i2osp (beNat sig ^ value e % value n) sig.length) (8 * sig.length - 1)) := by
    rw [ekp, loop_ok_bind, validatePss_any okp hodd c _ message sig hfit (by omega) hk2 hm, hdl]
  refine ⟨hgen, fun bits hl h8 hhi hlt => ?_, fun bits hl h8 hlt hsm hv => ?_⟩
  · rw [hgen]
    have hb : bits = 8 * sig.length := by omega
    have he1 : (8 * sig.length - 1 + 7) / 8 = sig.length := by omega
    have hp : beNat sig ^ value e % value n < 256 ^ sig.length := by
      have := Nat.mod_lt (beNat sig ^ value e) (show 0 < value n by omega)
      rw [show (256 : Nat) = 2 ^ 8 by decide, ← pow_mul, ← hb]
      omega
    unfold rsassaPssVerify
    dsimp only
    rw [if_neg (not_not.mpr hl), if_neg (by omega), hb, he1, if_neg (by omega)]
  · rw [hgen] at hv
    have hv := Except.ok.inj hv
    have he1 : (bits - 1 + 7) / 8 = sig.length := by omega
    have hz : bits - 1 = 8 * sig.length - (8 * sig.length - (bits - 1)) := by omega
    have hp : beNat sig ^ value e % value n < 256 ^ sig.length := by
      rw [show (256 : Nat) = 2 ^ 8 by decide, ← pow_mul]
      exact lt_of_lt_of_le hsm (Nat.pow_le_pow_right (by decide) (by omega))
    have hp2 : beNat sig ^ value e % value n < 2 ^ (8 * sig.length) := by
      rw [pow_mul]; exact hp
    unfold rsassaPssVerify
    dsimp only
    rw [if_neg (not_not.mpr hl), if_neg (by omega), he1, if_neg (by omega)]
    have hEl : (i2osp (beNat sig ^ value e % value n) sig.length).length = sig.length := i2osp_length _ _
    have := pssVerify_more (H := digest c) (hLen := digestLength c) (sLen := digestLength c) (z := 8 * sig.length - (bits - 1)) (M := message)
      (EM := i2osp (beNat sig ^ value e % value n) sig.length) (by omega) (by omega) (by rw [hEl]; omega)
      (by rw [hEl, beNat_i2osp, Nat.mod_eq_of_lt hp2, ← hz]; exact hsm) (by rw [hEl]; exact hv)
    rw [hEl, ← hz] at this
    exact this

example : value oddN % 2 = 1 ∧ 1 < value oddN ∧ (List.replicate 92 1#8).length = (734 + 7) / 8 ∧ 1 < 734 % 8 ∧ beNat (List.replicate 92 1#8) < value oddN ∧
    beNat (List.replicate 92 1#8) ^ 1 % value oddN < 2 ^ (734 - 1) ∧ 2 * digestLength .sha2_256 + 2 ≤ 92 := by
  rw [oddN_value]; decide +kernel

/-- The encoding of the empty message with a salt of zeros for 733 bits, as a number. -/
def oddSig : Nat := 16892241384718441122772413865112136954175411744015662047273584713336884197167688006151823841593387889181973167996812800619034031496449373830424477240365043298206806399013403539255719986586280946712219453025011118188295100

/-- The claim fails: with the exponent 1, this encoding is its own signature; it is good and refused. -/
theorem C98_false : ¬ C98_claim := by
  intro h
  have lN : oddN.length = 23 := by decide +kernel
  have l1 : (bnOfU32 736 1#32).length = 23 := by decide +kernel
  have v1 : value (bnOfU32 736 1#32) = 1 := by decide +kernel
  have hl : (i2osp oddSig 92).length = 92 := i2osp_length _ _
  have hb : beNat (i2osp oddSig 92) = oddSig := by rw [beNat_i2osp]; exact Nat.mod_eq_of_lt (by decide +kernel)
  have hlt : beNat (i2osp oddSig 92) < value oddN := by rw [hb, oddN_value]; decide +kernel
  have hodd : value oddN % 2 = 1 := by rw [oddN_value]; decide +kernel
  have a := h 23 oddN (bnOfU32 736 1#32) .sha2_256 [] (i2osp oddSig 92) 734 (by decide) lN l1 hodd (by decide)
    (by rw [oddN_value]; decide +kernel) (by rw [oddN_value]; decide +kernel) (by rw [hl]; decide) (by decide) (by decide) (by rw [hl]) hlt
  have b := (C98_partial 23 oddN (bnOfU32 736 1#32) .sha2_256 [] (i2osp oddSig 92) (by decide) lN l1 hodd (by rw [oddN_value]; decide +kernel)
    (by rw [hl]) (by rw [hl]; decide) (by rw [hl]; decide) (by decide)).1
  have hc := Except.ok.inj (a.symm.trans b)
  have hm : beNat (i2osp oddSig 92) ^ value (bnOfU32 736 1#32) % value oddN = oddSig := by
    rw [v1, pow_one, Nat.mod_eq_of_lt hlt, hb]
  unfold rsassaPssVerify at hc
  dsimp only at hc
  rw [hm, hl, if_neg (by decide), if_neg (by omega), if_neg (by decide +kernel)] at hc
  have hcg : ∀ bits, emsaPssVerify (digest .sha2_256) (digestLength .sha2_256) (digestLength .sha2_256) [] (i2osp oddSig 92) bits =
      emsaPssVerify (hashOf .sha2_256) (digestLength .sha2_256) (digestLength .sha2_256) [] (i2osp oddSig 92) bits := fun bits =>
    pssVerify_congr _ _ _ _ _ (fun m hm => (hashOf_eq .sha2_256 m hm).symm) (by decide) (by decide)
      (by rw [digest_length .sha2_256 [] (by decide)]; decide) (by rw [hl]; decide)
  rw [show (734 - 1 + 7) / 8 = 92 by decide, hcg, hcg] at hc
  revert hc
  decide +kernel

end Verif.Props
