import Verif.Proof.Pss
import Verif.Proof.Random
import Verif.Props.Mont
import Mathlib.NumberTheory.LucasLehmer
import Mathlib.Tactic.NormNum.Prime

/-! Properties C30 - C38 and C82: include/caligo/rsa.h, include/caligo/pkcs1.h and the RSA key classes. -/

namespace Verif.Props
open Verif.Model Verif.Proof Verif.Spec

/-! ### C30 -/

/-- C30: `rsaep(m)` is congruent to `m^e`, is the canonical residue when that is not 0, and the path for `e = 65537` returns what the general
path returns. -/
theorem C30_rsaep (w : Nat) (hw : 0 < w) (n e m : List U32) (hn : n.length = w) (he : e.length = w) (hm : m.length = w) (hodd : value n % 2 = 1)
    (h1 : 1 < value n) :
    ∃ k r, rsaPubNew (32 * w) n e = .ok k ∧ rsaep (32 * w) k m = .ok r ∧ value r ≡ value m ^ value e [MOD value n] ∧
      (value m ^ value e % value n ≠ 0 → value r = value m ^ value e % value n) ∧
      (do let v ← montOf (32 * w) k.s m; let x ← montExp (32 * w) k.s v e; montTo (32 * w) k.s x) = .ok r := by
  obtain ⟨k, ek, rfl, rfl, ok⟩ := rsaPubNew_spec w hw n e hn he hodd h1
  obtain ⟨r, er, lr, vr⟩ := rsaep_spec ok m hm
  refine ⟨k, r, ek, er, ?_, ?_, ?_⟩
  · rw [Nat.ModEq, vr, canonN_mod]
  · intro h; rw [vr, canonN_of_mod h]
  · obtain ⟨v, x, r', e1, e2, e3, l3, v3⟩ := expPath_spec ok.st (by rw [ok.hN]; exact h1) m k.e hm he
    rw [e1, loop_ok_bind, e2, loop_ok_bind, e3]
    congr 1
    apply value_inj (by omega)
    rw [v3, vr, ok.hN]

/-- A case that meets the hypotheses of `C30_rsaep`. -/
example := C30_rsaep 2 (by decide) [5#32, 9#32] [17#32, 0#32] [7#32, 8#32] rfl rfl rfl (by decide) (by decide)

/-- C30, the remaining case: a result divisible by `n` is returned as 0 only for `m = 0` (and `e ≠ 0`), otherwise as `n` itself. -/
theorem C30_multiple (w : Nat) (hw : 0 < w) (n e m : List U32) (hn : n.length = w) (he : e.length = w) (hm : m.length = w) (hodd : value n % 2 = 1)
    (h1 : 1 < value n) (h0 : value n ∣ value m ^ value e) :
    ∃ k r, rsaPubNew (32 * w) n e = .ok k ∧ rsaep (32 * w) k m = .ok r ∧ value r = if value m = 0 then 0 else value n := by
  obtain ⟨k, ek, rfl, rfl, ok⟩ := rsaPubNew_spec w hw n e hn he hodd h1
  obtain ⟨r, er, lr, vr⟩ := rsaep_spec ok m hm
  refine ⟨k, r, ek, er, ?_⟩
  rw [vr, canonN]
  by_cases hz : value m = 0
  · rw [if_pos hz]
    by_cases hez : value k.e = 0
    · rw [hez, pow_zero] at h0
      have := Nat.le_of_dvd (by decide) h0
      omega
    · rw [hz, zero_pow hez]; simp
  · rw [if_neg hz, if_pos ⟨pow_ne_zero _ hz, h0⟩]

example : (do let k ← rsaPubNew 32 [3233#32] [17#32]; rsaep 32 k [65#32]) = .ok [2790#32] := by decide +kernel
example : (do let k ← rsaPubNew 32 [15#32] [3#32]; rsaep 32 k [30#32]) = .ok [15#32] := by decide +kernel

/-! ### C31 -/

/-- C31: for an RSA key pair the private operation undoes the public one and conversely, for every `m < n`. -/
theorem C31_inverse (w : Nat) (hw : 0 < w) (n e d m : List U32) (hn : n.length = w) (he : e.length = w) (hd : d.length = w) (hm : m.length = w)
    (hv : ValidPair (value n) (value e) (value d)) (hlt : value m < value n) :
    ∃ kp ks, rsaPubNew (32 * w) n e = .ok kp ∧ rsaPrivNew (32 * w) n d = .ok ks ∧
      (do let x ← rsaep (32 * w) kp m; rsadp (32 * w) ks x) = .ok m ∧ (do let x ← rsadp (32 * w) ks m; rsaep (32 * w) kp x) = .ok m := by
  obtain ⟨_, _, h1, hodd⟩ := validPair_pos hv
  obtain ⟨kp, ekp, _, _, okp⟩ := rsaPubNew_spec w hw n e hn he hodd h1
  obtain ⟨ks, eks, _, _, oks⟩ := rsaPrivNew_spec w hw n d hn hd hodd h1
  refine ⟨kp, ks, ekp, eks, ?_, ?_⟩
  · obtain ⟨x, ex, lx, vx⟩ := rsaep_spec okp m hm
    obtain ⟨y, ey, ly, vy⟩ := rsadp_spec oks x lx
    rw [ex, loop_ok_bind, ey]
    congr 1
    apply value_inj (by omega)
    rw [vy, vx, canonN_roundtrip hv hlt]
  · obtain ⟨x, ex, lx, vx⟩ := rsadp_spec oks m hm
    obtain ⟨y, ey, ly, vy⟩ := rsaep_spec okp x lx
    rw [ex, loop_ok_bind, ey]
    congr 1
    apply value_inj (by omega)
    rw [vy, vx, canonN_roundtrip (validPair_symm hv) hlt]

example : ValidPair 3233 17 413 := ⟨61, 53, by norm_num, by norm_num, by decide, by decide, by decide, by decide, by decide⟩

/-! ### C32 -/

/-- C32: `MGF` is MGF1 of RFC 8017, of exactly the requested length. -/
theorem C32_mgf1 (c : HashClass) (seed : List Byte) (len : Nat) (hlen : len ≤ 2 ^ 32) (hs : seed.length + 4 < 2 ^ 61) :
    ∃ m, mgf c seed len = .ok m ∧ m.length = len ∧ mgf1 (digest c) (digestLength c) seed len = some m := by
  rw [← hashsize_eq]; exact mgf_spec c seed len hlen hs

/-- A case that meets the hypotheses of `C32_mgf1`. -/
example := C32_mgf1 .sha1 [1#8, 2#8] 50 (by decide) (by decide)

/-- Longer requests (which RFC 8017 allows up to `2^32 * hLen`) return nothing. -/
theorem C32_long (c : HashClass) (seed : List Byte) (len : Nat) (hlen : 2 ^ 32 < len) : mgf c seed len = .ok [] := by
  rw [mgf, if_pos (by omega)]

example : (3 : Nat) ≤ 2 ^ 32 ∧ ([1#8, 2#8] : List Byte).length + 4 < 2 ^ 61 := by decide
example : mgf .sha1 (ascii "foo") 3 = .ok [0x1a#8, 0xc9#8, 0x07#8] := by decide +kernel

/-! ### C33 -/

/-- C33, the full claim. -/
def C33_claim : Prop := ∀ (c : HashClass) (oid : List Nat) (data : List Byte) (k : Nat), hashOid c = some oid → data.length < 2 ^ 24 → k < 2 ^ 63 →
  (∀ EM, emsaPkcs1 (digest c) oid (tlv 0x30#8 data) k = some EM → pkcs1 c data k = .ok EM) ∧
  (emsaPkcs1 (digest c) oid (tlv 0x30#8 data) k = none → pkcs1 c data k = .error .thrown)

theorem asn1Id_digestInfo {c : HashClass} (hc : c ≠ .sha3_224 ∧ c ≠ .sha3_384 ∧ c ≠ .sha3_512) {oid : List Nat} (ho : hashOid c = some oid)
    (d : List Byte) (hd : d.length = hashsize c) : asn1Id c ++ d = digestInfo oid d := by
  obtain ⟨p, h1, h2⟩ := C11_partial c hc oid d ho (by rw [hd, hashsize_eq])
  rw [asn1Id, h1]; exact h2

theorem tlv_length_lt (data : List Byte) (hd : data.length < 2 ^ 24) : (tlv 0x30#8 data).length < 2 ^ 61 := by
  rw [← pkcs1Prefix_eq data hd, List.length_append]
  have := pkcs1Prefix_length data.length
  omega

/-- C33, what holds: for MD5, SHA-1, SHA-2 and SHA3-256 the encoding is right and has `k` bytes whenever RFC 8017 allows `k`. Below that limit there
is no error: with `tLen + 3 ≤ k` the padding is shorter than 8 bytes, with `k = tLen + 1` and `tLen + 2` the result has `tLen + 3` bytes, and with
`k ≤ tLen` the call does not return. Missing: SHA3-224, SHA3-384, SHA3-512 (wrong DigestInfo, C11) and the error report. -/
theorem C33_partial (c : HashClass) (hc : c ≠ .sha3_224 ∧ c ≠ .sha3_384 ∧ c ≠ .sha3_512) (oid : List Nat) (data : List Byte) (k : Nat)
    (ho : hashOid c = some oid) (hd : data.length < 2 ^ 24) (hk : k < 2 ^ 63) :
    (∀ EM, emsaPkcs1 (digest c) oid (tlv 0x30#8 data) k = some EM → pkcs1 c data k = .ok EM ∧ EM.length = k) ∧
    (k ≤ (digestInfo oid (digest c (tlv 0x30#8 data))).length → pkcs1 c data k = .error .diverges) ∧
    ((digestInfo oid (digest c (tlv 0x30#8 data))).length < k →
      pkcs1 c data k = .ok ([0x00#8, 0x01#8] ++ List.replicate (k - (digestInfo oid (digest c (tlv 0x30#8 data))).length - 3) 0xff#8 ++ [0x00#8] ++
        digestInfo oid (digest c (tlv 0x30#8 data)))) := by
  have hdl := digest_length c (tlv 0x30#8 data) (tlv_length_lt data hd)
  have hT := asn1Id_digestInfo hc ho _ hdl
  have hspec := pkcs1_spec c data k hd hk
  rw [hT] at hspec
  have hTl : (digestInfo oid (digest c (tlv 0x30#8 data))).length = (asn1Id c).length + hashsize c := by
    rw [← hT, List.length_append, hdl]
  rw [← hTl] at hspec
  refine ⟨?_, ?_, ?_⟩
  · intro EM h
    rw [emsaPkcs1] at h
    by_cases hs : k < (digestInfo oid (digest c (tlv 0x30#8 data))).length + 11
    · rw [if_pos hs] at h; exact absurd h (by simp)
    · rw [if_neg hs] at h
      rw [hspec, if_neg (by omega)]
      refine ⟨congrArg Except.ok (Option.some.inj h), ?_⟩
      rw [← Option.some.inj h]
      simp only [List.length_append, List.length_replicate, List.length_cons, List.length_nil]
      omega
  · intro h; rw [hspec, if_pos h]
  · intro h; rw [hspec, if_neg (by omega)]

/-- A case that meets the hypotheses of `C33_partial`. -/
example := C33_partial .sha2_256 (by decide) [2, 16, 840, 1, 101, 3, 4, 2, 1] [1#8, 2#8] 81 (by decide +kernel) (by decide) (by decide)

/-- The claim fails: a too short request never returns. -/
theorem C33_false : ¬ C33_claim := by
  intro h
  have h1 := (h .md5 _ [] 0 rfl (by decide) (by decide)).2 (by rw [emsaPkcs1]; simp)
  rw [pkcs1_spec .md5 [] 0 (by decide) (by decide), if_pos (by omega)] at h1
  exact absurd h1 (by simp)

example : hashOid .sha2_256 = some [2, 16, 840, 1, 101, 3, 4, 2, 1] ∧ (List.replicate 300 1#8).length < 2 ^ 24 := by decide +kernel
example : (pkcs1 .md5 [1#8] 64).map List.length = .ok 64 := by decide +kernel

/-! ### C34 -/

/-- C34, the full claim. The code reads the signature least significant byte first (the callers reverse it), so `sig` is the octet string of
RFC 8017 reversed. -/
def C34_claim : Prop := ∀ (w : Nat) (n e : List U32) (c : HashClass) (oid : List Nat) (data sig : List Byte), 0 < w → n.length = w → e.length = w →
  value n % 2 = 1 → 1 < value n → hashOid c = some oid → (c ≠ .sha3_224 ∧ c ≠ .sha3_384 ∧ c ≠ .sha3_512) → data.length < 2 ^ 24 →
  2 ^ (8 * (sig.length - 1)) ≤ value n → value n < 2 ^ (8 * sig.length) → sig.length < 2 ^ 63 →
  (digestInfo oid (digest c (tlv 0x30#8 data))).length + 11 ≤ sig.length →
  ∃ b, (do let k ← rsaPubNew (32 * w) n e; validatePkcs1 (32 * w) k c data sig) = .ok b ∧
    (b = true ↔ leNat sig < value n ∧ emsaPkcs1 (digest c) oid (tlv 0x30#8 data) sig.length = some (i2osp (leNat sig ^ value e % value n) sig.length))

theorem fit_of_bounds {w k : Nat} {n : List U32} (hw : 0 < w) (hn : n.length = w) (hlo : 2 ^ (8 * (k - 1)) ≤ value n) : k ≤ 4 * w := by
  have h1 := value_lt n
  rw [hn] at h1
  have := (Nat.pow_lt_pow_iff_right (a := 2) (by decide)).mp (lt_of_le_of_lt hlo h1)
  omega

/-- The encoding as a number is below a modulus of the same byte length. -/
theorem em_lt {k : Nat} {EM t : List Byte} (h : EM = 0#8 :: t) (hl : EM.length = k) : beNat EM < 2 ^ (8 * (k - 1)) := by
  subst h
  rw [beNat_cons]
  have := beNat_lt t
  simp only [List.length_cons] at hl
  rw [show k - 1 = t.length by omega]
  simpa using this

/-- C34, what holds: everything except the range check `s < n` of RFC 8017 section 5.2.2 step 1. -/
theorem C34_partial (w : Nat) (n e : List U32) (c : HashClass) (oid : List Nat) (data sig : List Byte) (hw : 0 < w) (hn : n.length = w)
    (he : e.length = w) (hodd : value n % 2 = 1) (h1 : 1 < value n) (ho : hashOid c = some oid)
    (hc : c ≠ .sha3_224 ∧ c ≠ .sha3_384 ∧ c ≠ .sha3_512) (hd : data.length < 2 ^ 24)
    (hlo : 2 ^ (8 * (sig.length - 1)) ≤ value n) (hhi : value n < 2 ^ (8 * sig.length)) (h63 : sig.length < 2 ^ 63)
    (hlen : (digestInfo oid (digest c (tlv 0x30#8 data))).length + 11 ≤ sig.length) :
    ∃ b, (do let k ← rsaPubNew (32 * w) n e; validatePkcs1 (32 * w) k c data sig) = .ok b ∧
      (b = true ↔ emsaPkcs1 (digest c) oid (tlv 0x30#8 data) sig.length = some (i2osp (leNat sig ^ value e % value n) sig.length)) := by
  obtain ⟨k, ek, _, _, ok⟩ := rsaPubNew_spec w hw n e hn he hodd h1
  have hfit := fit_of_bounds hw hn hlo
  obtain ⟨EM, hEM⟩ : ∃ EM, emsaPkcs1 (digest c) oid (tlv 0x30#8 data) sig.length = some EM := by
    rw [emsaPkcs1]; rw [if_neg (by omega)]; exact ⟨_, rfl⟩
  obtain ⟨hp, hEl⟩ := (C33_partial c hc oid data sig.length ho hd h63).1 EM hEM
  have hE0 : ∃ t, EM = 0#8 :: t := by
    rw [emsaPkcs1] at hEM; rw [if_neg (by omega)] at hEM
    exact ⟨_, (Option.some.inj hEM).symm⟩
  obtain ⟨t, hE0⟩ := hE0
  have hElt := em_lt hE0 hEl
  obtain ⟨ls, vs⟩ := bnOfBytes_fwd w sig (by omega)
  obtain ⟨r, er, lr, vr⟩ := rsaep_spec ok _ ls
  rw [vs] at vr
  obtain ⟨lh, vh⟩ := bnOfBytes_rev w EM (by omega)
  refine ⟨bnEq (bnOfBytes (32 * w) EM.reverse) r, ?_, ?_⟩
  · rw [ek, loop_ok_bind, validatePkcs1, hp, loop_ok_bind, er, loop_ok_bind]; rfl
  · rw [bnEq_iff _ _ (by omega), hEM, Option.some.injEq]
    have hmod : value n ≠ 0 := by omega
    have hlt : leNat sig ^ value e % value n < 2 ^ (8 * sig.length) := lt_trans (Nat.mod_lt _ (by omega)) hhi
    constructor
    · intro h
      have hv : beNat EM = value r := by rw [← vh, h]
      apply beNat_inj (by rw [hEl, i2osp_length])
      rw [beNat_i2osp, Nat.mod_eq_of_lt hlt, hv]
      rw [vr]
      rw [vr] at hv
      have hne : canonN (value n) (leNat sig ^ value e) < value n := by rw [← hv]; omega
      have := canonN_mod (value n) (leNat sig ^ value e)
      rwa [Nat.mod_eq_of_lt hne] at this
    · intro h
      apply value_inj (by omega)
      rw [vh, vr]
      have hE : beNat EM = leNat sig ^ value e % value n := by
        rw [h, beNat_i2osp, Nat.mod_eq_of_lt hlt]
      have hpos : beNat EM ≠ 0 := by
        intro hz
        -- the second octet is 1
        rw [emsaPkcs1] at hEM; rw [if_neg (by omega)] at hEM
        have := Option.some.inj hEM
        rw [← this] at hz
        simp only [List.cons_append, List.nil_append, beNat_cons] at hz
        have h2 : 0 < 1 * 2 ^ (8 * (List.replicate (sig.length - (digestInfo oid (digest c (tlv 48#8 data))).length - 3) 255#8 ++
            0#8 :: digestInfo oid (digest c (tlv 48#8 data))).length) := by positivity
        simp at hz
      rw [canonN_of_mod (by omega), hE]

/-- C34, at most one signature below `n` is accepted if the exponent is invertible. -/
theorem C34_unique (w : Nat) (n e : List U32) (d : Nat) (c : HashClass) (oid : List Nat) (data sig sig' : List Byte) (hw : 0 < w) (hn : n.length = w)
    (he : e.length = w) (hv : ValidPair (value n) (value e) d) (ho : hashOid c = some oid)
    (hc : c ≠ .sha3_224 ∧ c ≠ .sha3_384 ∧ c ≠ .sha3_512) (hd : data.length < 2 ^ 24)
    (hlo : 2 ^ (8 * (sig.length - 1)) ≤ value n) (hhi : value n < 2 ^ (8 * sig.length)) (h63 : sig.length < 2 ^ 63)
    (hlen : (digestInfo oid (digest c (tlv 0x30#8 data))).length + 11 ≤ sig.length) (hll : sig'.length = sig.length)
    (hlt : leNat sig < value n) (hlt' : leNat sig' < value n)
    (ha : (do let k ← rsaPubNew (32 * w) n e; validatePkcs1 (32 * w) k c data sig) = .ok true)
    (ha' : (do let k ← rsaPubNew (32 * w) n e; validatePkcs1 (32 * w) k c data sig') = .ok true) : sig = sig' := by
  obtain ⟨_, _, h1, hodd⟩ := validPair_pos hv
  obtain ⟨b, hb, hbi⟩ := C34_partial w n e c oid data sig hw hn he hodd h1 ho hc hd hlo hhi h63 hlen
  obtain ⟨b', hb', hbi'⟩ := C34_partial w n e c oid data sig' hw hn he hodd h1 ho hc hd (by rw [hll]; exact hlo) (by rw [hll]; exact hhi)
    (by omega) (by omega)
  rw [ha] at hb; rw [ha'] at hb'
  have t1 := hbi.mp (Except.ok.inj hb).symm
  have t2 := hbi'.mp (Except.ok.inj hb').symm
  rw [hll, t1, Option.some.injEq] at t2
  have hx := congrArg beNat t2
  have hmod : ∀ x : Nat, x % value n < 2 ^ (8 * sig.length) := fun x => lt_trans (Nat.mod_lt _ (by omega)) hhi
  rw [beNat_i2osp, beNat_i2osp, Nat.mod_eq_of_lt (hmod _), Nat.mod_eq_of_lt (hmod _)] at hx
  have i1 := rsa_identity hv (leNat sig)
  have i2 := rsa_identity hv (leNat sig')
  rw [Nat.ModEq, Nat.mod_eq_of_lt hlt, pow_mul, Nat.pow_mod, hx, ← Nat.pow_mod, ← pow_mul] at i1
  rw [Nat.ModEq, Nat.mod_eq_of_lt hlt'] at i2
  exact leNat_inj hll.symm (by omega)

/-- The claim fails: with `n = 2^376 + 1` and `e = 1` the encoding plus `n` is accepted. -/
theorem C34_false : ¬ C34_claim := by
  intro h
  set n : List U32 := [1#32] ++ List.replicate 10 0#32 ++ [0x1000000#32] with hndef
  have hn : value n = 2 ^ 376 + 1 := by decide +kernel
  set e : List U32 := [1#32] ++ List.replicate 11 0#32 with hedef
  have he : value e = 1 := by decide +kernel
  have hdl : (digest .md5 (tlv 0x30#8 [])).length = 16 := digest_length .md5 _ (tlv_length_lt [] (by decide))
  have hTl : (digestInfo [1, 2, 840, 113549, 2, 5] (digest .md5 (tlv 0x30#8 []))).length = 34 := by
    rw [← asn1Id_digestInfo (c := .md5) (by decide) rfl _ hdl, List.length_append, hdl]; decide
  obtain ⟨EM, hEM⟩ : ∃ EM, emsaPkcs1 (digest .md5) [1, 2, 840, 113549, 2, 5] (tlv 0x30#8 []) 48 = some EM := by
    rw [emsaPkcs1]; rw [if_neg (by omega)]; exact ⟨_, rfl⟩
  obtain ⟨hp, hEl⟩ := (C33_partial .md5 (by decide) _ [] 48 rfl (by decide) (by decide)).1 EM hEM
  obtain ⟨t, hE0⟩ : ∃ t, EM = 0#8 :: t := by
    rw [emsaPkcs1] at hEM; rw [if_neg (by omega)] at hEM
    exact ⟨_, (Option.some.inj hEM).symm⟩
  have hElt : beNat EM < 2 ^ 376 := em_lt hE0 hEl
  have hbig : beNat EM + (2 ^ 376 + 1) < 2 ^ 384 := by omega
  have hsl : ((i2osp (beNat EM + (2 ^ 376 + 1)) 48).reverse).length = 48 := by rw [List.length_reverse, i2osp_length]
  have hsv : leNat (i2osp (beNat EM + (2 ^ 376 + 1)) 48).reverse = beNat EM + (2 ^ 376 + 1) := by
    rw [leNat_i2osp]; exact Nat.mod_eq_of_lt hbig
  have a := h 12 n e .md5 [1, 2, 840, 113549, 2, 5] [] (i2osp (beNat EM + (2 ^ 376 + 1)) 48).reverse (by decide) (by decide) (by decide)
    (by rw [hn]; decide) (by rw [hn]; decide) rfl (by decide) (by decide) (by rw [hn, hsl]; decide) (by rw [hn, hsl]; decide) (by rw [hsl]; decide)
    (by rw [hTl, hsl]; decide)
  have b := C34_partial 12 n e .md5 [1, 2, 840, 113549, 2, 5] [] (i2osp (beNat EM + (2 ^ 376 + 1)) 48).reverse (by decide) (by decide) (by decide)
    (by rw [hn]; decide) (by rw [hn]; decide) rfl (by decide) (by decide) (by rw [hn, hsl]; decide) (by rw [hn, hsl]; decide) (by rw [hsl]; decide)
    (by rw [hTl, hsl]; decide)
  obtain ⟨x, hx, hxi⟩ := a
  obtain ⟨y, hy, hyi⟩ := b
  rw [hx] at hy
  have hxy := Except.ok.inj hy
  have hacc : y = true := by
    apply hyi.mpr
    rw [hsv, hn, he, pow_one, Nat.add_mod_right, Nat.mod_eq_of_lt (by omega), hsl, hEM, ← hEl, i2osp_beNat]
  have := (hxi.mp (hxy.trans hacc)).1
  rw [hsv, hn] at this
  omega

example : (do let k ← rsaPubNew 32 [3233#32] [17#32]; validatePkcs1 32 k .md5 [] [1#8, 2#8]) = .error .diverges := by decide +kernel

/-! ### C35 -/

/-- C35, the full claim. -/
def C35_claim : Prop := ∀ (w : Nat) (n e d : List U32) (c : HashClass) (oid : List Nat) (data : List Byte) (k : Nat), 0 < w → n.length = w →
  e.length = w → d.length = w → ValidPair (value n) (value e) (value d) → hashOid c = some oid →
  (c ≠ .sha3_224 ∧ c ≠ .sha3_384 ∧ c ≠ .sha3_512) → data.length < 2 ^ 24 → 2 ^ (8 * k - 1) ≤ value n → value n < 2 ^ (8 * k) → k < 2 ^ 63 →
  (digestInfo oid (digest c (tlv 0x30#8 data))).length + 11 ≤ k →
  ∃ sig, (do let ks ← rsaPrivNew (32 * w) n d; signPkcs1 (32 * w) ks c data) = .ok sig ∧ sig.length = k ∧
    (do let kp ← rsaPubNew (32 * w) n e; validatePkcs1 (32 * w) kp c data sig) = .ok true

/-- C35, the claim without the length. -/
def C35_accept_claim : Prop := ∀ (w : Nat) (n e d : List U32) (c : HashClass) (oid : List Nat) (data : List Byte) (k : Nat), 0 < w → n.length = w →
  e.length = w → d.length = w → ValidPair (value n) (value e) (value d) → hashOid c = some oid →
  (c ≠ .sha3_224 ∧ c ≠ .sha3_384 ∧ c ≠ .sha3_512) → data.length < 2 ^ 24 → 2 ^ (8 * k - 1) ≤ value n → value n < 2 ^ (8 * k) → k < 2 ^ 63 →
  (digestInfo oid (digest c (tlv 0x30#8 data))).length + 11 ≤ k →
  ∃ sig, (do let ks ← rsaPrivNew (32 * w) n d; signPkcs1 (32 * w) ks c data) = .ok sig ∧
    (do let kp ← rsaPubNew (32 * w) n e; validatePkcs1 (32 * w) kp c data sig) = .ok true

theorem stripZeros_spec : ∀ (l : List Byte), beNat l ≠ 0 → ∃ s, stripZeros l = .ok s ∧ beNat s = beNat l ∧ s.length ≤ l.length
  | [], h => absurd rfl h
  | [a], h => by
    have : a ≠ 0#8 := by rintro rfl; exact h rfl
    exact ⟨[a], by rw [stripZeros, if_neg this], rfl, le_refl _⟩
  | a :: b :: t, h => by
    rw [stripZeros]
    by_cases hc : a = 0#8 ∧ b &&& 0x80#8 = 0#8
    · rw [if_pos hc]
      have he : beNat (a :: b :: t) = beNat (b :: t) := by rw [beNat_cons, hc.1]; simp
      obtain ⟨s, h1, h2, h3⟩ := stripZeros_spec (b :: t) (by rw [← he]; exact h)
      exact ⟨s, h1, by rw [h2, he], by simp only [List.length_cons] at h3 ⊢; omega⟩
    · rw [if_neg hc]; exact ⟨_, rfl, rfl, le_refl _⟩

/-- C35, what holds: the output is, most significant byte first, the number `EM^d mod n` without some of its leading zero bytes, and that number, written
in `k` bytes least significant byte first, is accepted. Missing: the output itself has the wrong byte order and often the wrong length, see `C35_accept_false`. -/
theorem C35_partial (w : Nat) (n e d : List U32) (c : HashClass) (oid : List Nat) (data : List Byte) (k : Nat) (hw : 0 < w) (hn : n.length = w)
    (he : e.length = w) (hdl : d.length = w) (hv : ValidPair (value n) (value e) (value d)) (ho : hashOid c = some oid)
    (hc : c ≠ .sha3_224 ∧ c ≠ .sha3_384 ∧ c ≠ .sha3_512) (hd : data.length < 2 ^ 24) (hlo : 2 ^ (8 * k - 1) ≤ value n) (hhi : value n < 2 ^ (8 * k))
    (h63 : k < 2 ^ 63) (hlen : (digestInfo oid (digest c (tlv 0x30#8 data))).length + 11 ≤ k) :
    ∃ EM sig, emsaPkcs1 (digest c) oid (tlv 0x30#8 data) k = some EM ∧
      (do let ks ← rsaPrivNew (32 * w) n d; signPkcs1 (32 * w) ks c data) = .ok sig ∧ beNat sig = beNat EM ^ value d % value n ∧
      stripZeros (i2osp (beNat EM ^ value d % value n) (4 * w)) = .ok sig ∧
      (do let kp ← rsaPubNew (32 * w) n e; validatePkcs1 (32 * w) kp c data (i2osp (beNat sig) k).reverse) = .ok true := by
  obtain ⟨_, _, h1, hodd⟩ := validPair_pos hv
  obtain ⟨ks, eks, _, _, oks⟩ := rsaPrivNew_spec w hw n d hn hdl hodd h1
  have hbits : ks.actualN = 8 * k := bitlen_unique oks.lo oks.hi hlo hhi oks.pos (by omega)
  have hfit : 8 * k ≤ 32 * w := by have := oks.fit; omega
  have ha8 : ks.actualN / 8 = k := by omega
  obtain ⟨EM, hEM⟩ : ∃ EM, emsaPkcs1 (digest c) oid (tlv 0x30#8 data) k = some EM := by
    rw [emsaPkcs1]; rw [if_neg (by omega)]; exact ⟨_, rfl⟩
  obtain ⟨hp, hEl⟩ := (C33_partial c hc oid data k ho hd h63).1 EM hEM
  have hform := hEM
  rw [emsaPkcs1] at hform; rw [if_neg (by omega)] at hform
  have hform := (Option.some.inj hform).symm
  have hElt : beNat EM < 2 ^ (8 * (k - 1)) := em_lt (t := _) hform hEl
  have hEn : beNat EM < value n := lt_trans hElt (lt_of_lt_of_le (Nat.pow_lt_pow_right (by decide) (by omega)) hlo)
  have hE0 : beNat EM ≠ 0 := by
    rw [hform]; simp only [List.cons_append, List.nil_append, beNat_cons]; simp
  obtain ⟨lb, vb⟩ := bnOfBytes_rev w EM (by omega)
  obtain ⟨r, er, lr, vr⟩ := rsadp_spec oks _ lb
  rw [vb] at vr
  have hround := canonN_roundtrip (validPair_symm hv) hEn
  have hmodne : beNat EM ^ value d % value n ≠ 0 := by
    intro hz
    have hi := rsa_identity (validPair_symm hv) (beNat EM)
    rw [pow_mul, Nat.ModEq, Nat.pow_mod, hz, Nat.mod_eq_of_lt hEn] at hi
    obtain ⟨he0, _, _, _⟩ := validPair_pos hv
    rw [zero_pow he0, Nat.zero_mod] at hi
    exact hE0 hi.symm
  rw [canonN_of_mod hmodne] at vr hround
  have hbe : beNat (bnAsBytes r).reverse = value r := by rw [beNat, List.reverse_reverse, (bnAsBytes_spec r).2]
  obtain ⟨sig, es, vs, _⟩ := stripZeros_spec (bnAsBytes r).reverse (by rw [hbe, vr]; exact hmodne)
  rw [hbe, vr] at vs
  have hexact : (bnAsBytes r).reverse = i2osp (beNat EM ^ value d % value n) (4 * w) := by
    have hl := (bnAsBytes_spec r).1
    apply beNat_inj
    · rw [List.length_reverse, i2osp_length, hl, lr]
    · rw [hbe, vr, beNat_i2osp]
      refine (Nat.mod_eq_of_lt ?_).symm
      exact lt_of_lt_of_le (lt_trans (Nat.mod_lt _ (by omega)) hhi) (Nat.pow_le_pow_right (by decide) (by omega))
  refine ⟨EM, sig, hEM, ?_, vs, by rw [← hexact]; exact es, ?_⟩
  · rw [eks, loop_ok_bind, signPkcs1, ha8, hp, loop_ok_bind, er, loop_ok_bind, es]
  · have hlt : beNat EM ^ value d % value n < 2 ^ (8 * k) := lt_trans (Nat.mod_lt _ (by omega)) hhi
    have hll : (i2osp (beNat sig) k).reverse.length = k := by rw [List.length_reverse, i2osp_length]
    obtain ⟨b, hb, hbi⟩ := C34_partial w n e c oid data (i2osp (beNat sig) k).reverse hw hn he hodd h1 ho hc hd
      (by rw [hll]; exact le_trans (Nat.pow_le_pow_right (by decide) (by omega)) hlo) (by rw [hll]; exact hhi) (by omega) (by omega)
    rw [hb]
    refine congrArg Except.ok (hbi.mpr ?_)
    have e1 : leNat (i2osp (beNat sig) k).reverse = beNat EM ^ value d % value n := by
      rw [leNat_i2osp, vs, Nat.mod_eq_of_lt hlt]
    have e2 : (beNat EM ^ value d % value n) ^ value e % value n = beNat EM := by
      have := canonN_mod (value n) ((beNat EM ^ value d % value n) ^ value e)
      rw [hround, Nat.mod_eq_of_lt hEn] at this
      exact this.symm
    rw [hll, e1, e2, hEM]
    conv_rhs => rw [← hEl, i2osp_beNat]

/-- The key pair of the counterexample: `(2^127 - 1)(2^521 - 1)` with `e = d = 1`. -/
def demoN : List U32 := bnOfBytes 672 (i2osp ((2 ^ 127 - 1) * (2 ^ 521 - 1)) 84).reverse
def demoOne : List U32 := bnOfU32 672 1#32

theorem prime_521 : Nat.Prime (2 ^ 521 - 1) := by
  have : (mersenne 521).Prime := lucas_lehmer_sufficiency _ (by simp) (by norm_num)
  exact this

theorem prime_127 : Nat.Prime (2 ^ 127 - 1) := by
  have : (mersenne 127).Prime := lucas_lehmer_sufficiency _ (by simp) (by norm_num)
  exact this

theorem prime_607 : Nat.Prime (2 ^ 607 - 1) := by
  have : (mersenne 607).Prime := lucas_lehmer_sufficiency _ (by simp) (by norm_num)
  exact this

theorem demo_pair : ValidPair ((2 ^ 127 - 1) * (2 ^ 521 - 1)) 1 1 :=
  ⟨2 ^ 127 - 1, 2 ^ 521 - 1, prime_127, prime_521, by decide +kernel, by decide +kernel, by decide +kernel, rfl, Nat.ModEq.refl _⟩

/-- The claim fails: with this key the 80 bytes returned by the signer are refused. -/
theorem C35_accept_false : ¬ C35_accept_claim := by
  intro h
  have hn : value demoN = (2 ^ 127 - 1) * (2 ^ 521 - 1) := by decide +kernel
  have h1 : value demoOne = 1 := by decide +kernel
  have hdl : (digest .md5 (tlv 0x30#8 [])).length = 16 := digest_length .md5 _ (tlv_length_lt [] (by decide))
  have hTl : (digestInfo [1, 2, 840, 113549, 2, 5] (digest .md5 (tlv 0x30#8 []))).length = 34 := by
    rw [← asn1Id_digestInfo (c := .md5) (by decide) rfl _ hdl, List.length_append, hdl]; decide
  have hnl : demoN.length = 21 := by decide +kernel
  have h1l : demoOne.length = 21 := by decide +kernel
  have hv : ValidPair (value demoN) (value demoOne) (value demoOne) := by rw [hn, h1]; exact demo_pair
  obtain ⟨sig, es, ev⟩ := h 21 demoN demoOne demoOne .md5 [1, 2, 840, 113549, 2, 5] [] 81 (by decide) hnl h1l h1l hv rfl
    (by decide) (by decide) (by rw [hn]; decide +kernel) (by rw [hn]; decide +kernel) (by decide) (by rw [hTl]; decide)
  obtain ⟨EM, sig', hEM, es', vs, hx, -⟩ := C35_partial 21 demoN demoOne demoOne .md5 [1, 2, 840, 113549, 2, 5] [] 81 (by decide) hnl h1l h1l hv rfl
    (by decide) (by decide) (by rw [hn]; decide +kernel) (by rw [hn]; decide +kernel) (by decide) (by rw [hTl]; decide)
  obtain rfl : sig = sig' := Except.ok.inj (es.symm.trans es')
  set T := digestInfo [1, 2, 840, 113549, 2, 5] (digest .md5 (tlv 0x30#8 [])) with hT
  have hEMl := ((C33_partial .md5 (by decide) _ [] 81 rfl (by decide) (by decide)).1 EM hEM).2
  rw [emsaPkcs1, ← hT] at hEM
  rw [if_neg (by omega)] at hEM
  have hform := (Option.some.inj hEM).symm
  have hElt : beNat EM < 2 ^ 640 := em_lt (k := 81) hform hEMl
  have hEn : beNat EM < (2 ^ 127 - 1) * (2 ^ 521 - 1) := lt_trans hElt (by decide +kernel)
  have hbytes : i2osp (beNat EM ^ value demoOne % value demoN) (4 * 21) = [0#8, 0#8, 0#8] ++ EM := by
    rw [h1, hn, pow_one, Nat.mod_eq_of_lt hEn]
    apply beNat_inj
    · rw [i2osp_length, List.length_append, hEMl]; rfl
    · rw [beNat_i2osp, beNat_append, Nat.mod_eq_of_lt (lt_trans hElt (by decide +kernel))]
      rw [show beNat [0#8, 0#8, 0#8] = 0 by decide, Nat.zero_mul, Nat.zero_add]
  have hsig : sig = 0x01#8 :: (List.replicate (81 - 34 - 3) 0xff#8 ++ [0x00#8] ++ T) := by
    rw [hbytes, hform, hTl] at hx
    simp only [List.cons_append, List.nil_append, List.append_assoc] at hx ⊢
    rw [stripZeros, if_pos (by decide), stripZeros, if_pos (by decide), stripZeros, if_pos (by decide), stripZeros, if_pos (by decide),
      show List.replicate (81 - 34 - 3) 255#8 = 255#8 :: List.replicate 43 255#8 by rfl, List.cons_append, stripZeros, if_neg (by decide)] at hx
    exact (Except.ok.inj hx).symm
  have hsl : sig.length = 80 := by rw [hsig]; simp [hTl]
  obtain ⟨kp, ekp, _, _, okp⟩ := rsaPubNew_spec 21 (by decide) demoN demoOne hnl h1l (by rw [hn]; decide +kernel) (by rw [hn]; decide +kernel)
  have hp := (C33_partial .md5 (by decide) _ [] 80 rfl (by decide) (by decide)).2.2 (by rw [← hT, hTl]; decide)
  rw [← hT, hTl] at hp
  obtain ⟨ls, vsg⟩ := bnOfBytes_fwd 21 sig (by omega)
  obtain ⟨r, er, lr, vr⟩ := rsaep_spec okp _ ls
  have hslt := leNat_lt sig
  rw [hsl] at hslt
  rw [vsg, h1, hn, pow_one, canonN_of_lt (lt_trans hslt (by decide +kernel))] at vr
  generalize hEM' : ([0x00#8, 0x01#8] ++ List.replicate (80 - 34 - 3) 0xff#8 ++ [0x00#8] ++ T) = EM' at hp
  have hEl' : EM'.length = 80 := by rw [← hEM']; simp [hTl]
  obtain ⟨lh, vh⟩ := bnOfBytes_rev 21 EM' (by omega)
  rw [ekp, loop_ok_bind, validatePkcs1, hsl, hp, loop_ok_bind, er, loop_ok_bind] at ev
  have heq := (bnEq_iff _ _ (by omega)).mp (Except.ok.inj ev)
  have hv2 : beNat EM' = leNat sig := by rw [← vh, heq, vr]
  have hrev : EM' = sig.reverse := beNat_inj (by rw [hEl', List.length_reverse, hsl]) (by rw [hv2, beNat, List.reverse_reverse])
  have hTn : T ≠ [] := by intro hz; rw [hz] at hTl; simp at hTl
  have a1 := congrArg List.head? hrev
  have a2 := congrArg List.getLast? hrev
  rw [List.head?_reverse, hsig, ← hEM', ← List.cons_append, List.getLast?_append_of_ne_nil _ hTn] at a1
  rw [List.getLast?_reverse, hsig, ← hEM', List.getLast?_append_of_ne_nil _ hTn, ← a1] at a2
  simp at a2

theorem C35_false : ¬ C35_claim := fun h => C35_accept_false fun w n e d c oid data k h1 h2 h3 h4 h5 h6 h7 h8 h9 h10 h11 h12 =>
  let ⟨sig, a, _, b⟩ := h w n e d c oid data k h1 h2 h3 h4 h5 h6 h7 h8 h9 h10 h11 h12
  ⟨sig, a, b⟩

/-! ### C36 -/

/-- C36: PSS signatures made by the library are accepted, for every salt of hash length and every modulus that RFC 8017 allows for that hash. -/
theorem C36_sign_verify (w : Nat) (n e d : List U32) (c : HashClass) (message salt : List Byte) (k : Nat) (hw : 0 < w) (hn : n.length = w)
    (he : e.length = w) (hd : d.length = w) (hv : ValidPair (value n) (value e) (value d)) (hlo : 2 ^ (8 * k - 1) ≤ value n)
    (hhi : value n < 2 ^ (8 * k)) (hs : salt.length = digestLength c) (hk : 2 * digestLength c + 2 ≤ k) (hk2 : k ≤ 2 ^ 32)
    (hm : message.length < 2 ^ 61) :
    ∃ sig, (do let ks ← rsaPrivNew (32 * w) n d; signPss (32 * w) ks c (digest c message) salt) = .ok sig ∧ sig.length = k ∧
      (do let kp ← rsaPubNew (32 * w) n e; validatePss (32 * w) kp c (digestLength c) message sig) = .ok true := by
  obtain ⟨_, _, h1, hodd⟩ := validPair_pos hv
  obtain ⟨kp, ekp, _, _, okp⟩ := rsaPubNew_spec w hw n e hn he hodd h1
  obtain ⟨ks, eks, _, _, oks⟩ := rsaPrivNew_spec w hw n d hn hd hodd h1
  rw [← hashsize_eq] at hs hk ⊢
  have hdl := digest_length c message hm
  have hle := hashsize_le c
  obtain ⟨sig, es, ls, b, ev, hb⟩ := signPss_validate okp oks hv k (by omega) hlo hhi c message (digest c message) salt hm (by omega) hk2 (by omega)
  have hbt : b = true := hb.mpr rfl
  subst hbt
  rw [hs] at ev
  exact ⟨sig, by rw [eks, loop_ok_bind, es], ls, by rw [ekp, loop_ok_bind, ev]⟩

example : ValidPair ((2 ^ 127 - 1) * (2 ^ 521 - 1)) 1 1 ∧ 2 ^ (8 * 81 - 1) ≤ (2 ^ 127 - 1) * (2 ^ 521 - 1) ∧ (2 ^ 127 - 1) * (2 ^ 521 - 1) < 2 ^ (8 * 81) ∧
    2 * digestLength .sha2_256 + 2 ≤ 81 := ⟨demo_pair, by decide +kernel, by decide +kernel, by decide⟩

/-! ### C37, C82, C83 -/

theorem clearLeft_take (l : List Byte) (L : Nat) (hL : 0 < L) (h : clearLeft 1 (l.take L) = l.take L) : clearLeft 1 l = l := by
  rcases Nat.lt_or_ge l.length L with h1 | h1
  · rwa [List.take_of_length_le (by omega)] at h
  · conv_lhs => rw [← List.take_append_drop L l]
    rw [clearLeft_append _ _ (by rw [List.length_take]; omega), h, List.take_append_drop]

theorem pssVerify_top {H : List Byte → List Byte} {hLen sLen : Nat} {M EM : List Byte} (hk : hLen + sLen + 2 ≤ EM.length) (h : clearLeft 1 EM ≠ EM) :
    emsaPssVerify H hLen sLen M EM (8 * EM.length - 1) = false := by
  have e1 : (8 * EM.length - 1 + 7) / 8 = EM.length := by omega
  have e2 : 8 * EM.length - (8 * EM.length - 1) = 1 := by omega
  rw [emsaPssVerify]
  simp only [e1, e2]
  rw [if_neg (by omega), if_neg (by simp)]
  split
  · rfl
  · rw [if_pos]
    intro h2
    exact h (clearLeft_take EM _ (by omega) h2)

theorem pssVerify_zero {H : List Byte → List Byte} {hLen sLen k : Nat} {M : List Byte} (hk : 0 < k) :
    emsaPssVerify H hLen sLen M (i2osp 0 k) (8 * k - 1) = false := by
  obtain ⟨j, rfl⟩ : ∃ j, k = j + 1 := ⟨k - 1, by omega⟩
  rw [emsaPssVerify]
  dsimp only
  split
  · rfl
  · split
    · rfl
    · rw [if_pos]
      rw [i2osp_succ, List.getLast?_append_of_ne_nil _ (by simp)]
      decide

/-- What `validatePssSignature` computes for a signature as long as the modulus. -/
theorem validatePss_spec {w : Nat} {kp : RsaPub} {n e : Nat} (hp : PubOk w kp n e) (c : HashClass) (sLen : Nat) (message sig : List Byte)
    (hlo : 2 ^ (8 * sig.length - 1) ≤ n) (hhi : n < 2 ^ (8 * sig.length)) (hfit : sig.length ≤ 4 * w) (hk : hashsize c + sLen + 2 ≤ sig.length)
    (hk2 : sig.length ≤ 2 ^ 32) (hm : message.length < 2 ^ 61) :
    validatePss (32 * w) kp c sLen message sig =
      .ok (emsaPssVerify (digest c) (hashsize c) sLen message (i2osp (beNat sig ^ e % n) sig.length) (8 * sig.length - 1)) := by
  obtain ⟨lb, vb⟩ := bnOfBytes_rev w sig hfit
  obtain ⟨r, er, lr, vr⟩ := rsaep_spec hp _ lb
  rw [vb] at vr
  rw [validatePss_eq, er, loop_ok_bind, asBytes_i2osp, pssCheck_spec c sLen message _ hm (by rw [i2osp_length]; exact hk) (by rw [i2osp_length]; exact hk2)]
  rw [i2osp_length]
  refine congrArg Except.ok ?_
  rw [vr]
  by_cases h0 : beNat sig ^ e % n = 0
  · rw [h0, pssVerify_zero (by omega), canonN]
    split
    · have hl : (i2osp n sig.length).length = sig.length := i2osp_length _ _
      have h1 := pssVerify_top (H := digest c) (hLen := hashsize c) (sLen := sLen) (M := message) (EM := i2osp n sig.length) (by rw [hl]; exact hk) (by
        apply clear_ge _ (by rw [hl]; omega)
        rw [hl, beNat_i2osp, Nat.mod_eq_of_lt hhi]; exact hlo)
      rw [hl] at h1
      exact h1
    · rw [h0]; exact pssVerify_zero (by omega)
  · rw [canonN_of_mod h0]

/-- C37: for a modulus of `8k` bits and a signature of `k` bytes the verifier applies EMSA-PSS-VERIFY with a salt of hash length to `s^e mod n`. -/
theorem C37_verify (w : Nat) (n e : List U32) (c : HashClass) (message sig : List Byte) (hw : 0 < w) (hn : n.length = w) (he : e.length = w)
    (hodd : value n % 2 = 1) (hlo : 2 ^ (8 * sig.length - 1) ≤ value n) (hhi : value n < 2 ^ (8 * sig.length))
    (hk : 2 * digestLength c + 2 ≤ sig.length) (hk2 : sig.length ≤ 2 ^ 32) (hm : message.length < 2 ^ 61) :
    (do let k ← rsaPubNew (32 * w) n e; validatePss (32 * w) k c (digestLength c) message sig) =
      .ok (emsaPssVerify (digest c) (digestLength c) (digestLength c) message (i2osp (beNat sig ^ value e % value n) sig.length) (8 * sig.length - 1)) := by
  have h1 : 1 < value n := lt_of_lt_of_le (Nat.one_lt_two_pow (by omega)) hlo
  obtain ⟨kp, ekp, _, _, okp⟩ := rsaPubNew_spec w hw n e hn he hodd h1
  have hfit : sig.length ≤ 4 * w :=
    fit_of_bounds hw hn (le_trans (Nat.pow_le_pow_right (by decide) (by omega)) hlo)
  rw [← hashsize_eq] at hk ⊢
  rw [ekp, loop_ok_bind, validatePss_spec okp c _ message sig hlo hhi hfit (by omega) hk2 hm]

example : 2 ^ (8 * (List.replicate 81 7#8).length - 1) ≤ value demoN ∧ value demoN < 2 ^ (8 * (List.replicate 81 7#8).length) ∧ value demoN % 2 = 1 := by
  decide +kernel

/-- C83, the full claim: a signature that is not below the modulus is refused (RFC 8017 section 8.1.2 step 2b). -/
def C83_claim : Prop := ∀ (w : Nat) (n e : List U32) (c : HashClass) (message sig : List Byte), 0 < w → n.length = w → e.length = w →
  value n % 2 = 1 → 2 ^ (8 * sig.length - 1) ≤ value n → value n < 2 ^ (8 * sig.length) → 2 * digestLength c + 2 ≤ sig.length → sig.length ≤ 2 ^ 32 →
  message.length < 2 ^ 61 → value n ≤ beNat sig →
  (do let k ← rsaPubNew (32 * w) n e; validatePss (32 * w) k c (digestLength c) message sig) = .ok false

/-- C83, what the code does: the verdict depends on the signature modulo `n` only. Missing: the range check. -/
theorem C83_partial (w : Nat) (n e : List U32) (c : HashClass) (message sig sig' : List Byte) (hw : 0 < w) (hn : n.length = w) (he : e.length = w)
    (hodd : value n % 2 = 1) (hlo : 2 ^ (8 * sig.length - 1) ≤ value n) (hhi : value n < 2 ^ (8 * sig.length))
    (hk : 2 * digestLength c + 2 ≤ sig.length) (hk2 : sig.length ≤ 2 ^ 32) (hm : message.length < 2 ^ 61) (hl : sig'.length = sig.length)
    (hc : beNat sig' ≡ beNat sig [MOD value n]) :
    (do let k ← rsaPubNew (32 * w) n e; validatePss (32 * w) k c (digestLength c) message sig') =
      (do let k ← rsaPubNew (32 * w) n e; validatePss (32 * w) k c (digestLength c) message sig) := by
  rw [C37_verify w n e c message sig hw hn he hodd hlo hhi hk hk2 hm,
    C37_verify w n e c message sig' hw hn he hodd (by rw [hl]; exact hlo) (by rw [hl]; exact hhi) (by omega) (by omega) hm, hl]
  have : beNat sig' ^ value e % value n = beNat sig ^ value e % value n := hc.pow _
  rw [this]

/-- The claim fails for `n = 2^351 + 1`, `e = 1` and SHA-1. -/
theorem C83_false : ¬ C83_claim := by
  intro h
  set n : List U32 := [1#32] ++ List.replicate 9 0#32 ++ [0x80000000#32] with hndef
  have hn : value n = 2 ^ 351 + 1 := by decide +kernel
  set e : List U32 := [1#32] ++ List.replicate 10 0#32 with hedef
  have he : value e = 1 := by decide +kernel
  set salt : List Byte := List.replicate 20 0#8
  have hdl : (digest .sha1 []).length = 20 := digest_length .sha1 [] (by decide)
  obtain ⟨mask, m1, m2, eg⟩ := pssEncoded .sha1 (digest .sha1 []) salt 44 (by decide) (by decide) (by rw [hdl]; decide)
  obtain ⟨b, hb, hbi⟩ := pssCheck_encoded .sha1 [] (digest .sha1 []) salt mask 44 (by decide) (by decide) (by decide) (by rw [hdl]; decide) m1 m2
  have hbt : b = true := hbi.mpr rfl
  have lD := pssDB_length (44 - hashsize .sha1 - 1) salt (by decide)
  have lDm : (xorOctets (pssDB (44 - hashsize .sha1 - 1) salt) mask).length = 44 - hashsize .sha1 - 1 := by rw [xorOctets_length _ _ (by rw [lD, m2]), lD]
  have lH : (digest .sha1 (List.replicate 8 0#8 ++ digest .sha1 [] ++ salt)).length = 20 := digest_length .sha1 _ (by simp [hdl, salt])
  have hclear : clearLeft 1 (clearLeft 1 (xorOctets (pssDB (44 - hashsize .sha1 - 1) salt) mask) ++ digest .sha1 (List.replicate 8 0#8 ++ digest .sha1 [] ++ salt) ++ [0xbc#8]) =
      clearLeft 1 (xorOctets (pssDB (44 - hashsize .sha1 - 1) salt) mask) ++ digest .sha1 (List.replicate 8 0#8 ++ digest .sha1 [] ++ salt) ++ [0xbc#8] := by
    rw [List.append_assoc, clearLeft_append _ _ (by rw [clearLeft_length, lDm]; decide), clearLeft_idem]
  have lEM : (clearLeft 1 (xorOctets (pssDB (44 - hashsize .sha1 - 1) salt) mask) ++ digest .sha1 (List.replicate 8 0#8 ++ digest .sha1 [] ++ salt) ++ [0xbc#8]).length = 44 := by
    simp only [List.length_append, clearLeft_length, lDm, lH, List.length_singleton]; rfl
  have hEven : beNat (clearLeft 1 (xorOctets (pssDB (44 - hashsize .sha1 - 1) salt) mask) ++ digest .sha1 (List.replicate 8 0#8 ++ digest .sha1 [] ++ salt) ++ [0xbc#8]) % 2 = 0 := by
    rw [beNat_append, show beNat [0xbc#8] = 188 by decide, show 2 ^ (8 * [0xbc#8].length) = 256 by rfl]
    omega
  generalize clearLeft 1 (xorOctets (pssDB (44 - hashsize .sha1 - 1) salt) mask) ++ digest .sha1 (List.replicate 8 0#8 ++ digest .sha1 [] ++ salt) ++ [0xbc#8] = EM at *
  have hEMlt := clear_lt EM (by rw [lEM]; decide) hclear
  rw [lEM] at hEMlt
  rw [pssCheck_spec .sha1 _ [] EM (by decide) (by rw [lEM]; decide) (by omega), hbt] at hb
  have hb := Except.ok.inj hb
  have hsl : (i2osp (beNat EM + (2 ^ 351 + 1)) 44).length = 44 := i2osp_length _ _
  have hsv : beNat (i2osp (beNat EM + (2 ^ 351 + 1)) 44) = beNat EM + (2 ^ 351 + 1) := by
    rw [beNat_i2osp]
    have h8 : beNat EM < 2 ^ 351 := hEMlt
    have h9 : beNat EM + (2 ^ 351 + 1) < 2 ^ 352 := by
      rw [show (2 : Nat) ^ 352 = 2 ^ 351 + 2 ^ 351 by decide]
      have h10 : beNat EM ≠ 2 ^ 351 - 1 := by intro hz; rw [hz] at hEven; exact absurd hEven (by decide +kernel)
      generalize (2 : Nat) ^ 351 = X at *
      omega
    exact Nat.mod_eq_of_lt h9
  have a := h 11 n e .sha1 [] (i2osp (beNat EM + (2 ^ 351 + 1)) 44) (by decide) (by decide) (by decide) (by rw [hn]; decide) (by rw [hn, hsl]; decide)
    (by rw [hn, hsl]; decide) (by rw [hsl]; decide) (by rw [hsl]; decide) (by decide) (by rw [hsv, hn]; omega)
  rw [C37_verify 11 n e .sha1 [] (i2osp (beNat EM + (2 ^ 351 + 1)) 44) (by decide) (by decide) (by decide) (by rw [hn]; decide) (by rw [hn, hsl]; decide)
    (by rw [hn, hsl]; decide) (by rw [hsl]; decide) (by rw [hsl]; decide) (by decide)] at a
  rw [hsv, hn, he, pow_one, Nat.add_mod_right, Nat.mod_eq_of_lt (by omega), hsl, show i2osp (beNat EM) 44 = EM by
    conv_rhs => rw [← i2osp_beNat EM, lEM]] at a
  rw [lEM] at hb
  have hc : emsaPssVerify (digest .sha1) (digestLength .sha1) (digestLength .sha1) [] EM (8 * 44 - 1) = true := hb
  rw [hc] at a
  exact absurd (Except.ok.inj a) (by decide)

/-- C82, the full claim: a signature too short for the hash is refused. -/
def C82_claim : Prop := ∀ (w : Nat) (n e : List U32) (c : HashClass) (message sig : List Byte), 0 < w → n.length = w → e.length = w →
  value n % 2 = 1 → 1 < value n → sig.length < 2 * digestLength c + 2 → sig.length ≤ 4 * w → message.length < 2 ^ 61 →
  (do let k ← rsaPubNew (32 * w) n e; validatePss (32 * w) k c (digestLength c) message sig) = .ok false

theorem getSalt_short (c : HashClass) (sLen : Nat) (EM : List Byte) (h1 : hashsize c + 1 ≤ EM.length) (h2 : EM.length < hashsize c + 1 + sLen)
    (h3 : sLen ≤ 64) : getSalt c sLen EM = .ok [] := by
  have hle := hashsize_le c
  obtain ⟨mask, e1, l1⟩ := mgf_length c ((EM.drop (EM.length - hashsize c - 1)).take (hashsize c)) (EM.length - hashsize c - 1) (by omega)
  have hsz : szSub (szSub EM.length (hashsize c)) 1 = EM.length - hashsize c - 1 := by
    unfold szSub; omega
  rw [getSalt, if_neg (by omega), hsz]
  dsimp only
  rw [e1, loop_ok_bind, l1]
  have : EM.length - hashsize c - 1 - szSub (EM.length - hashsize c - 1) sLen = 0 := by
    rw [szSub]; omega
  rw [this]; rfl

/-- C82, what the code does with a signature shorter than `2·hLen + 2`: up to `hLen` bytes it reads before the buffer; from `hLen + 2` to `2·hLen` bytes it
verifies with an empty salt. Missing: the refusal; the lengths `hLen + 1` and `2·hLen + 1`. -/
theorem C82_partial (w : Nat) (n e : List U32) (c : HashClass) (message sig : List Byte) (hw : 0 < w) (hn : n.length = w) (he : e.length = w)
    (hodd : value n % 2 = 1) (h1 : 1 < value n) (hfit : sig.length ≤ 4 * w) (hm : message.length < 2 ^ 61) :
    (sig.length ≤ digestLength c →
      (do let k ← rsaPubNew (32 * w) n e; validatePss (32 * w) k c (digestLength c) message sig) = .error .ub) ∧
    (digestLength c + 2 ≤ sig.length → sig.length ≤ 2 * digestLength c → 2 ^ (8 * sig.length - 1) ≤ value n → value n < 2 ^ (8 * sig.length) →
      (do let k ← rsaPubNew (32 * w) n e; validatePss (32 * w) k c (digestLength c) message sig) =
        .ok (emsaPssVerify (digest c) (digestLength c) 0 message (i2osp (beNat sig ^ value e % value n) sig.length) (8 * sig.length - 1))) := by
  obtain ⟨kp, ekp, _, _, okp⟩ := rsaPubNew_spec w hw n e hn he hodd h1
  have hle := hashsize_le c
  rw [← hashsize_eq]
  refine ⟨fun hs => ?_, fun hs hs2 hlo hhi => ?_⟩
  · obtain ⟨lb, vb⟩ := bnOfBytes_rev w sig hfit
    obtain ⟨r, er, lr, vr⟩ := rsaep_spec okp _ lb
    rw [ekp, loop_ok_bind, validatePss_eq, er, loop_ok_bind, pssCheck, getSalt, if_pos (by rw [asBytes_i2osp, i2osp_length]; omega)]; rfl
  · rw [ekp, loop_ok_bind, ← validatePss_spec okp c 0 message sig hlo hhi hfit (by omega) (by omega) hm, validatePss_eq, validatePss_eq]
    obtain ⟨lb, vb⟩ := bnOfBytes_rev w sig hfit
    obtain ⟨r, er, lr, vr⟩ := rsaep_spec okp _ lb
    rw [er, loop_ok_bind, loop_ok_bind, asBytes_i2osp, pssCheck, pssCheck, getSalt_short c _ _ (by rw [i2osp_length]; omega) (by rw [i2osp_length]; omega) (by omega)]
    obtain ⟨mask, -, lm, es⟩ := getSalt_spec c 0 (i2osp (value r) sig.length) (by rw [i2osp_length]; omega) (by rw [i2osp_length]; omega)
    rw [es, List.drop_of_length_le]
    rw [i2osp_length, xorOctets_length, List.length_take, i2osp_length] <;> rw [i2osp_length] at lm <;> simp [i2osp_length] <;> omega

/-- The claim fails: the empty signature. -/
theorem C82_false : ¬ C82_claim := by
  intro h
  have a := h 1 [15#32] [3#32] .sha1 [] [] (by decide) rfl rfl (by decide) (by decide) (by decide) (by decide) (by decide)
  rw [(C82_partial 1 [15#32] [3#32] .sha1 [] [] (by decide) rfl rfl (by decide) (by decide) (by decide) (by decide)).1 (by decide)] at a
  exact absurd a (by simp)

example : (do let k ← rsaPubNew 64 [0xffffffff#32, 0x80000000#32] [3#32, 0#32]; validatePss 64 k .sha1 20 [] [1#8, 2#8]) = .error .ub := by decide +kernel

/-! ### C38 -/

/-- the `rsa_pss_rsae_*` and `rsa_pss_pss_*` code points of TLS 1.3 (RFC 8446 section 4.2.3) -/
def pssSchemes : List (Nat × HashClass) :=
  [(0x0804, .sha2_256), (0x0805, .sha2_384), (0x0806, .sha2_512), (0x0809, .sha2_256), (0x080a, .sha2_384), (0x080b, .sha2_512)]

/-- the `rsa_pkcs1_*` code points with SHA-2 -/
def pkcs1Schemes : List Nat := [0x0401, 0x0501, 0x0601]

/-- C38, the full claim. -/
def C38_claim : Prop := ∀ (n e d : List U32) (k scheme : Nat) (message : List Byte) (rs : RandState), n.length = 128 → e.length = 128 → d.length = 128 →
  ValidPair (value n) (value e) (value d) → 2 ^ (8 * k - 1) ≤ value n → value n < 2 ^ (8 * k) → 130 ≤ k → message.length < 2 ^ 61 →
  (∀ c, (scheme, c) ∈ pssSchemes → ∃ sig rs', (do let ks ← rsaPrivNew 4096 n d; rsaSign ks scheme message rs) = .ok (sig, rs') ∧
    (do let kp ← rsaPubNew 4096 n e; validateSignature kp scheme message sig) = .ok true) ∧
  ((∀ c, (scheme, c) ∉ pssSchemes) → scheme ∉ pkcs1Schemes → (do let ks ← rsaPrivNew 4096 n d; rsaSign ks scheme message rs) = .ok ([], rs) ∧
    ∀ sig, (do let kp ← rsaPubNew 4096 n e; validateSignature kp scheme message sig) = .ok false)

/-- C38, what holds: unsupported schemes are refused by both sides; a PSS signature is produced and accepted exactly if the salted digest of the SHA-256
hash equals the salted digest of the right hash - always for SHA-256. Missing: the SHA-384 and SHA-512 schemes, where the signer hashes the message with
SHA-256. -/
theorem C38_partial (n e d : List U32) (k scheme : Nat) (message : List Byte) (rs : RandState) (hn : n.length = 128) (he : e.length = 128)
    (hd : d.length = 128) (hv : ValidPair (value n) (value e) (value d)) (hlo : 2 ^ (8 * k - 1) ≤ value n) (hhi : value n < 2 ^ (8 * k))
    (hk : 130 ≤ k) (hm : message.length < 2 ^ 61) :
    (∀ c, (scheme, c) ∈ pssSchemes → ∃ sig b, (do let ks ← rsaPrivNew 4096 n d; rsaSign ks scheme message rs) =
        .ok (sig, (genRandom8 (digestLength c) rs).2) ∧ sig.length = k ∧
      (do let kp ← rsaPubNew 4096 n e; validateSignature kp scheme message sig) = .ok b ∧
      (b = true ↔ digest c (List.replicate 8 0#8 ++ digest .sha2_256 message ++ (genRandom8 (digestLength c) rs).1) =
        digest c (List.replicate 8 0#8 ++ digest c message ++ (genRandom8 (digestLength c) rs).1))) ∧
    ((∀ c, (scheme, c) ∉ pssSchemes) → scheme ∉ pkcs1Schemes → (do let ks ← rsaPrivNew 4096 n d; rsaSign ks scheme message rs) = .ok ([], rs) ∧
      ∀ sig, (do let kp ← rsaPubNew 4096 n e; validateSignature kp scheme message sig) = .ok false) := by
  obtain ⟨_, _, h1, hodd⟩ := validPair_pos hv
  obtain ⟨kp, ekp, _, _, okp⟩ := rsaPubNew_spec 128 (by decide) n e hn he hodd h1
  obtain ⟨ks, eks, _, _, oks⟩ := rsaPrivNew_spec 128 (by decide) n d hn hd hodd h1
  have hfit : k ≤ 512 := fit_of_bounds (w := 128) (by decide) hn (le_trans (Nat.pow_le_pow_right (by decide) (by omega)) hlo)
  refine ⟨?_, ?_⟩
  · intro c hc
    have main : ∀ c, hashsize c ≤ 64 → ∃ sig b, signPss (32 * 128) ks c (hashOf .sha2_256 message) (genRandom8 (hashsize c) rs).1 = .ok sig ∧
        sig.length = k ∧ validatePss (32 * 128) kp c (hashsize c) message sig = .ok b ∧
        (b = true ↔ digest c (List.replicate 8 0#8 ++ digest .sha2_256 message ++ (genRandom8 (hashsize c) rs).1) =
          digest c (List.replicate 8 0#8 ++ digest c message ++ (genRandom8 (hashsize c) rs).1)) := by
      intro c hc
      have hsl := genRandom8_length (hashsize c) rs
      have hh := hashOf_eq .sha2_256 message hm
      have hl := digest_length .sha2_256 message hm
      obtain ⟨sig, es, ls, b, ev, hb⟩ := signPss_validate okp oks hv k (by omega) hlo hhi c message (digest .sha2_256 message) (genRandom8 (hashsize c) rs).1
        hm (by omega) (by omega) (by rw [hl, hsl]; have : hashsize .sha2_256 = 32 := rfl; omega)
      rw [hsl] at ev
      exact ⟨sig, b, by rw [hh]; exact es, ls, ev, hb⟩
    have e4 : (4096 : Nat) = 32 * 128 := by decide
    rw [← hashsize_eq, e4, ekp, eks]
    simp only [loop_ok_bind]
    obtain ⟨sig, b, es, ls, ev, hb⟩ := main c (hashsize_le c)
    refine ⟨sig, b, ?_, ls, ?_, hb⟩
    · simp only [pssSchemes, List.mem_cons, Prod.mk.injEq, List.not_mem_nil, or_false] at hc
      rcases hc with ⟨rfl, rfl⟩ | ⟨rfl, rfl⟩ | ⟨rfl, rfl⟩ | ⟨rfl, rfl⟩ | ⟨rfl, rfl⟩ | ⟨rfl, rfl⟩ <;>
      · rw [rsaSign]
        simp only [Nat.reduceEqDiff, if_false, if_true, or_true, true_or, or_self]
        exact congrArg (Except.map _) es
    · simp only [pssSchemes, List.mem_cons, Prod.mk.injEq, List.not_mem_nil, or_false] at hc
      rcases hc with ⟨rfl, rfl⟩ | ⟨rfl, rfl⟩ | ⟨rfl, rfl⟩ | ⟨rfl, rfl⟩ | ⟨rfl, rfl⟩ | ⟨rfl, rfl⟩ <;>
      · rw [validateSignature]
        simp only [Nat.reduceEqDiff, if_false, if_true, or_true, true_or, or_self]
        exact ev
  · intro h1 h2
    have e4 : (4096 : Nat) = 32 * 128 := by decide
    simp only [pkcs1Schemes, List.mem_cons, List.not_mem_nil, or_false, not_or] at h2
    have p1 := h1 .sha2_256
    have p2 := h1 .sha2_384
    have p3 := h1 .sha2_512
    simp [pssSchemes] at p1 p2 p3
    rw [e4, ekp, eks]
    simp only [loop_ok_bind]
    constructor
    · rw [rsaSign, if_neg h2.1, if_neg h2.2.1, if_neg h2.2.2, if_neg (by omega), if_neg (by omega), if_neg (by omega)]
    · intro sig
      rw [validateSignature, if_neg h2.1, if_neg h2.2.1, if_neg h2.2.2, if_neg (by omega), if_neg (by omega), if_neg (by omega)]

/-- C38 for the two SHA-256 schemes. -/
theorem C38_sha256 (n e d : List U32) (k scheme : Nat) (message : List Byte) (rs : RandState) (hn : n.length = 128) (he : e.length = 128)
    (hd : d.length = 128) (hv : ValidPair (value n) (value e) (value d)) (hlo : 2 ^ (8 * k - 1) ≤ value n) (hhi : value n < 2 ^ (8 * k))
    (hk : 130 ≤ k) (hm : message.length < 2 ^ 61) (hs : scheme = 0x0804 ∨ scheme = 0x0809) :
    ∃ sig rs', (do let ks ← rsaPrivNew 4096 n d; rsaSign ks scheme message rs) = .ok (sig, rs') ∧ sig.length = k ∧
      (do let kp ← rsaPubNew 4096 n e; validateSignature kp scheme message sig) = .ok true := by
  obtain ⟨sig, b, es, ls, ev, hb⟩ := (C38_partial n e d k scheme message rs hn he hd hv hlo hhi hk hm).1 .sha2_256 (by
    rcases hs with rfl | rfl <;> decide)
  have hbt : b = true := hb.mpr rfl
  subst hbt
  exact ⟨sig, _, es, ls, ev⟩

/-- The key of the counterexample: `(2^521 - 1)(2^607 - 1)` with `e = d = 1`. -/
def demoN2 : List U32 := bnOfBytes 4096 (i2osp ((2 ^ 521 - 1) * (2 ^ 607 - 1)) 512).reverse

theorem demoN2_facts : demoN2.length = 128 ∧ value demoN2 = (2 ^ 521 - 1) * (2 ^ 607 - 1) := by
  obtain ⟨l, v⟩ := bnOfBytes_rev 128 (i2osp ((2 ^ 521 - 1) * (2 ^ 607 - 1)) 512) (by rw [i2osp_length])
  exact ⟨l, v.trans ((beNat_i2osp _ _).trans (Nat.mod_eq_of_lt (by decide +kernel)))⟩

theorem demo_pair2 : ValidPair ((2 ^ 521 - 1) * (2 ^ 607 - 1)) 1 1 :=
  ⟨2 ^ 521 - 1, 2 ^ 607 - 1, prime_521, prime_607, by decide +kernel, by decide +kernel, by decide +kernel, rfl, Nat.ModEq.refl _⟩

/-- The claim fails: `rsa_pss_rsae_sha384`, the empty message, the initial random state. -/
theorem C38_false : ¬ C38_claim := by
  intro h
  have hn : value demoN2 = (2 ^ 521 - 1) * (2 ^ 607 - 1) := demoN2_facts.2
  have h1 : value (bnOfU32 4096 1#32) = 1 := by decide +kernel
  have hnl : demoN2.length = 128 := demoN2_facts.1
  have h1l : (bnOfU32 4096 1#32).length = 128 := by decide +kernel
  have hv : ValidPair (value demoN2) (value (bnOfU32 4096 1#32)) (value (bnOfU32 4096 1#32)) := by rw [hn, h1]; exact demo_pair2
  obtain ⟨sig, rs', es, ev⟩ := (h demoN2 (bnOfU32 4096 1#32) (bnOfU32 4096 1#32) 141 0x0805 [] randInit hnl h1l h1l hv (by rw [hn]; decide +kernel)
    (by rw [hn]; decide +kernel) (by decide) (by decide)).1 .sha2_384 (by decide)
  obtain ⟨sig', b, es', _, ev', hb⟩ := (C38_partial demoN2 (bnOfU32 4096 1#32) (bnOfU32 4096 1#32) 141 0x0805 [] randInit hnl h1l h1l hv
    (by rw [hn]; decide +kernel) (by rw [hn]; decide +kernel) (by decide) (by decide)).1 .sha2_384 (by decide)
  obtain rfl : sig = sig' := congrArg Prod.fst (Except.ok.inj (es.symm.trans es'))
  have hbt : b = true := (Except.ok.inj (ev.symm.trans ev')).symm
  have hd := hb.mp hbt
  have l1 := digest_length .sha2_256 [] (by decide)
  have l2 := digest_length .sha2_384 [] (by decide)
  have l3 := genRandom8_length (digestLength .sha2_384) randInit
  rw [← hash_three .sha2_384 _ _ _ (by rw [l1, l3]; decide), ← hash_three .sha2_384 _ _ _ (by rw [l2, l3]; decide), ← hashOf_eq .sha2_256 [] (by decide), ← hashOf_eq .sha2_384 [] (by decide)] at hd
  revert hd
  decide +kernel

end Verif.Props
