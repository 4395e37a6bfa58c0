import Verif.Proof.Name
import Verif.Proof.Rsa
import Verif.Props.Date
import Verif.Props.Bignum

/-! Parsing the DER encoding of a certificate. -/

namespace Verif.Proof
open Verif.Model Verif.Spec

theorem minBytes_head (n : Nat) : ∀ b t, minBytes n = b :: t → b ≠ 0#8 := by
  induction n using Nat.strong_induction_on with
  | _ n ih =>
    intro b t h
    by_cases h0 : n = 0
    · subst h0; rw [minBytes_zero] at h; exact nomatch h
    · rw [minBytes, if_neg h0] at h
      cases hm : minBytes (n / 256) with
      | nil =>
        rw [hm, List.nil_append] at h
        injection h with h _
        subst h
        intro e
        have h2 := (minBytes_spec (n / 256)).1
        rw [hm] at h2
        have h3 : n / 256 = 0 := h2.symm
        have := congrArg BitVec.toNat e
        rw [BitVec.toNat_ofNat] at this
        have : n % 256 = 0 := this
        omega
      | cons c s =>
        rw [hm, List.cons_append] at h
        injection h with h _
        subst h
        exact ih (n / 256) (Nat.div_lt_self (by omega) (by decide)) c s hm

/-- What is left of the content of an INTEGER when it is reversed and a zero removed. -/
theorem integer_strip (n : Nat) : (if (integerContent n).reverse.getLast? = some 0#8 then (integerContent n).reverse.dropLast else (integerContent n).reverse) =
    (minBytes n).reverse := by
  rw [integerContent]
  cases h : minBytes n with
  | nil => rfl
  | cons b t =>
    have hb := minBytes_head n b t h
    dsimp only
    split
    · rw [List.reverse_cons, List.getLast?_concat, if_pos rfl, List.dropLast_concat]
    · rw [List.reverse_cons, List.getLast?_concat, if_neg (by simpa using hb)]

theorem integer_length (n : Nat) : (minBytes n).length ≤ (integerContent n).length ∧ (integerContent n).length ≤ (minBytes n).length + 1 := by
  rw [integerContent]
  cases h : minBytes n with
  | nil => simp
  | cons b t => dsimp only; split <;> simp

theorem parseBignum_spec (w : Nat) {v : View} {n : Nat} {l post : List Byte} (h : At v (integerDer n ++ l) post) (hl : (integerContent n).length < 2 ^ 64) :
    ∃ x v', parseBignum (32 * w) v = .ok (x, v') ∧ At v' l post ∧ x.length = w ∧ value x = n % 2 ^ (32 * w) := by
  obtain ⟨v', e, ha⟩ := read_tlv h hl
  have hs := bnOfBytes_spec (32 * w) (minBytes n).reverse
  rw [bnN_mul32, leNat_take] at hs
  refine ⟨_, v', ?_, ha, hs.1, ?_⟩
  · rw [parseBignum, e, ok_bind, if_neg (by simp), span_bytes]
    dsimp only
    rw [integer_strip]; rfl
  · rw [hs.2, show leNat (minBytes n).reverse = n from (minBytes_spec n).1, show 8 * (4 * w) = 32 * w by ring]

theorem peek_tlv {v : View} {tag : Byte} {c l post : List Byte} (h : At v (tlv tag c ++ l) post) : v.peek = .ok tag := by
  have hs := h.size
  have hl : (tlv tag c ++ l).length = (derLength c.length ++ c ++ l).length + 1 := by rw [tlv]; simp
  have hlt : v.offset < v.data.size := by omega
  have hok := h.ok
  rw [View.peek, Span.get, if_pos hlt, rd]
  have : v.data.rest[v.offset]? = some tag := by
    have := congrArg List.head? h.rest
    rw [List.head?_drop] at this
    rw [this]; rfl
  rw [this]

theorem parseVersion_spec {v : View} {l post : List Byte} (h : At v (tlv 0xa0#8 (integerDer 2) ++ l) post) :
    ∃ v', parseVersion v = .ok (some v') ∧ At v' l post := by
  have h2 : integerDer 2 = [0x02#8, 0x01#8, 0x02#8] := by
    have : minBytes 2 = [0x02#8] := by rw [minBytes, if_neg (by decide), show 2 / 256 = 0 from rfl, minBytes_zero]; rfl
    rw [integerDer, integerContent, this]; rfl
  obtain ⟨v', e, ha⟩ := read_tlv h (by rw [h2]; decide)
  refine ⟨v', ?_, ha⟩
  have hin : At (viewOf ⟨integerDer 2 ++ (l ++ post), (integerDer 2).length⟩) (tlv 0x02#8 [0x02#8] ++ []) (l ++ post) := by
    have := at_view (integerDer 2) (l ++ post)
    rw [List.append_nil]
    rw [show tlv 0x02#8 [0x02#8] = integerDer 2 by rw [h2]; rfl]
    exact this
  obtain ⟨v2, e2, _⟩ := read_tlv hin (by decide)
  have hpi : parseInt (viewOf ⟨integerDer 2 ++ (l ++ post), (integerDer 2).length⟩) = .ok (2, v2) := by
    rw [parseInt, e2, ok_bind, if_neg (by simp), span_bytes]; rfl
  rw [parseVersion, peek_tlv h, ok_bind, if_pos rfl, e, ok_bind, hpi, ok_bind]
  rfl

theorem parseDate_spec {v : View} {d : DateTime} {l post : List Byte} (h : At v (timeDer d ++ l) post) (hv : d.Valid) (h1 : 1970 ≤ d.year) (h2 : Props.Before2100 d) :
    ∃ t v', parseDate v = .ok (t, v') ∧ At v' l post ∧ (t.toNat : Int) = unixTime d := by
  obtain ⟨t, e, ht⟩ := Props.after_1970 d hv h1
  rw [(Props.phantoms_zero d h1).mpr h2] at ht
  have ht' : (t.toNat : Int) = unixTime d := by simpa using ht
  rw [timeDer] at h
  split at h
  · next hy =>
    obtain ⟨v', e2, ha⟩ := read_tlv h (Props.utc_length d)
    refine ⟨t, v', ?_, ha, ht'⟩
    rw [parseDate, e2, ok_bind, span_bytes]
    change (do let d ← dateOfElement 23#8 (utcTime d); _) = _
    rw [utc_parse d (by omega) hy, e]; rfl
  · obtain ⟨v', e2, ha⟩ := read_tlv h (Props.generalized_length d)
    refine ⟨t, v', ?_, ha, ht'⟩
    rw [parseDate, e2, ok_bind, span_bytes]
    change (do let d ← dateOfElement 24#8 (generalizedTime d); _) = _
    rw [generalized_parse, e]; rfl

theorem le_tlv (tag : Byte) (c : List Byte) : c.length < (tlv tag c).length := by
  rw [tlv_length]; have := hdrLen_ge c.length; omega

/-- Reading an RSA key; an exponent below 17 is refused. -/
theorem parseRsaPubkey_spec {v : View} {n e : Nat} {l post : List Byte} (h : At v (rsaKeyDer n e ++ l) post) (hl : (rsaKeyDer n e).length < 2 ^ 64)
    (hn : n < 2 ^ 4096) (he : e < 2 ^ 4096) (hodd : n % 2 = 1) (h1 : 1 < n) :
    if e < 17 then parseRsaPubkey v = .error .thrown else
    ∃ k v', parseRsaPubkey v = .ok (k, v') ∧ At v' l post ∧ k.n.length = 128 ∧ k.e.length = 128 ∧ value k.n = n ∧ value k.e = e ∧ rsaPubNew 4096 k.n k.e = .ok k := by
  have l1 := le_tlv 0x30#8 (integerDer n ++ integerDer e)
  rw [← rsaKeyDer] at l1
  rw [List.length_append] at l1
  have l2 := le_tlv 0x02#8 (integerContent n)
  have l3 := le_tlv 0x02#8 (integerContent e)
  rw [← integerDer] at l2 l3
  obtain ⟨v', e1, ha⟩ := read_tlv h (by rw [List.length_append]; omega)
  obtain ⟨x, v2, e2, ha2, lx, vx⟩ := parseBignum_spec 128 (at_view (integerDer n ++ integerDer e) (l ++ post)) (by omega)
  have ha2' : At v2 (integerDer e ++ []) (l ++ post) := by rw [List.append_nil]; exact ha2
  obtain ⟨y, v3, e3, _, ly, vy⟩ := parseBignum_spec 128 ha2' (by omega)
  rw [show 32 * 128 = 4096 from rfl] at e2 e3 vx vy
  rw [Nat.mod_eq_of_lt hn] at vx
  rw [Nat.mod_eq_of_lt he] at vy
  have hlt : bnLt y (bnOfU32 4096 17#32) = true ↔ e < 17 := by
    have h17 := bnOfU32_spec 4096 (by decide) 17#32
    rw [(Props.C19_compare y (bnOfU32 4096 17#32) (by rw [ly, h17.1]; rfl)).2, vy, h17.2]; rfl
  split
  · next h17 => rw [parseRsaPubkey, e1, ok_bind, e2, ok_bind, e3, ok_bind, if_pos (hlt.mpr h17)]
  · next h17 =>
    obtain ⟨k, ek, kn, ke, _⟩ := rsaPubNew_spec 128 (by decide) x y lx ly (by rw [vx]; exact hodd) (by rw [vx]; exact h1)
    rw [show 32 * 128 = 4096 from rfl] at ek
    refine ⟨k, v', ?_, ha, by rw [kn, lx], by rw [ke, ly], by rw [kn, vx], by rw [ke, vy], by rw [kn, ke, ek]⟩
    rw [parseRsaPubkey, e1, ok_bind, e2, ok_bind, e3, ok_bind, if_neg (fun h => h17 (hlt.mp h)), ek, ok_bind]; rfl

theorem oidRsa_eq : oidContent [1, 2, 840, 113549, 1, 1, 1] = oidRsaEncryption := by decide +kernel

theorem parsePublicKey_spec {v : View} {par : List Byte} {n e : Nat} {post : List Byte}
    (h : At v (tlv 0x30#8 (tlv 0x06#8 (oidContent [1, 2, 840, 113549, 1, 1, 1]) ++ par) ++ tlv 0x03#8 (0x00#8 :: rsaKeyDer n e)) post)
    (hl : (rsaSpkiDer par n e).length < 2 ^ 64) (hn : n < 2 ^ 4096) (he : e < 2 ^ 4096) (hodd : n % 2 = 1) (h1 : 1 < n) :
    if e < 17 then parsePublicKey v = .error .thrown else
    ∃ k, parsePublicKey v = .ok (some k) ∧ k.n.length = 128 ∧ k.e.length = 128 ∧ value k.n = n ∧ value k.e = e ∧ rsaPubNew 4096 k.n k.e = .ok k := by
  have l1 := le_tlv 0x30#8 (tlv 0x30#8 (tlv 0x06#8 (oidContent [1, 2, 840, 113549, 1, 1, 1]) ++ par) ++ tlv 0x03#8 (0x00#8 :: rsaKeyDer n e))
  rw [← rsaSpkiDer, List.length_append] at l1
  have l2 := le_tlv 0x30#8 (tlv 0x06#8 (oidContent [1, 2, 840, 113549, 1, 1, 1]) ++ par)
  have l3 := le_tlv 0x03#8 (0x00#8 :: rsaKeyDer n e)
  rw [List.length_cons] at l3
  obtain ⟨v1, e1, ha1⟩ := read_tlv h (by omega)
  have hin := at_view (tlv 0x06#8 (oidContent [1, 2, 840, 113549, 1, 1, 1]) ++ par) (tlv 0x03#8 (0x00#8 :: rsaKeyDer n e) ++ post)
  obtain ⟨v2, e2, _⟩ := read_tlv hin (by decide +kernel)
  have ha1' : At v1 (tlv 0x03#8 (0x00#8 :: rsaKeyDer n e) ++ []) post := by rw [List.append_nil]; exact ha1
  obtain ⟨v3, e3, _⟩ := read_tlv ha1' (by rw [List.length_cons]; omega)
  have hd : (Span.mk ((0x00#8 :: rsaKeyDer n e) ++ ([] ++ post)) (0x00#8 :: rsaKeyDer n e).length).drop 1 = .ok ⟨rsaKeyDer n e ++ post, (rsaKeyDer n e).length⟩ := by
    rw [Span.drop, if_pos (by simp)]; rfl
  have hk := parseRsaPubkey_spec (l := []) (by rw [List.append_nil]; exact at_view (rsaKeyDer n e) post) (by omega) hn he hodd h1
  have start : parsePublicKey v = (do let k ← parseRsaPubkey (viewOf ⟨rsaKeyDer n e ++ post, (rsaKeyDer n e).length⟩); return some k.1) := by
    rw [parsePublicKey, e1, ok_bind, if_neg (by simp), e2, ok_bind, if_neg (by simp), if_neg (by rw [span_bytes, oidRsa_eq]; simp), e3, ok_bind, hd, ok_bind]
  rw [start]
  split
  · next h17 => rw [if_pos h17] at hk; rw [hk]; rfl
  · next h17 =>
    rw [if_neg h17] at hk
    obtain ⟨k, v', ek, _, r⟩ := hk
    exact ⟨k, by rw [ek]; rfl, r⟩

theorem tailLoop_spec {v : View} {x : List Extension} {post : List Byte} (h : At v (extensionsDer x) post) (hl : (extensionsDer x).length < 2 ^ 64) :
    tailLoop (v.data.size + 1) v = .ok true := by
  rw [extensionsDer] at h hl
  split at h
  · rw [tailLoop, h.empty_iff]; rfl
  · next hx =>
    rw [if_neg hx] at hl
    have l1 := le_tlv 0xa3#8 (tlv 0x30#8 (x.flatMap extensionDer))
    have h' : At v (tlv 0xa3#8 (tlv 0x30#8 (x.flatMap extensionDer)) ++ []) post := by rw [List.append_nil]; exact h
    obtain ⟨v', e, ha⟩ := read_tlv h' (by omega)
    have hs := h.size
    obtain ⟨k, hk⟩ : ∃ k, v.data.size = k + 1 := ⟨v.data.size - 1, by omega⟩
    rw [hk, tailLoop, h.empty_iff, if_neg (by simp [tlv]), e, ok_bind, if_pos (Or.inr (Or.inr rfl)), tailLoop, ha.empty_iff]
    rfl

/-- What follows the key in a TBSCertificate. -/
def tailDer (t : Tbs) : List Byte := uniqueIdDer 0x81#8 t.issuerUniqueID ++ (uniqueIdDer 0x82#8 t.subjectUniqueID ++ extensionsDer t.extensions)

theorem tailLoop_refuse {v : View} {tag : Byte} {c l post : List Byte} (h : At v (tlv tag c ++ l) post) (hc : c.length < 2 ^ 64)
    (ht : ¬ (tag = 161#8 ∨ tag = 162#8 ∨ tag = 163#8)) (k : Nat) : tailLoop (k + 1) v = .ok false := by
  obtain ⟨v', e, _⟩ := read_tlv h hc
  rw [tailLoop, h.empty_iff, if_neg (by simp [tlv]), e, ok_bind, if_neg ht]

/-- Unique identifiers are refused. -/
theorem tailLoop_tail {v : View} {t : Tbs} {post : List Byte} (h : At v (tailDer t) post) (hl : (tailDer t).length < 2 ^ 64) :
    tailLoop (v.data.size + 1) v = .ok (decide (t.issuerUniqueID = none ∧ t.subjectUniqueID = none)) := by
  rw [tailDer] at h hl
  cases h1 : t.issuerUniqueID with
  | some c =>
    rw [h1, uniqueIdDer] at h hl
    have := le_tlv 0x81#8 c
    rw [List.length_append] at hl
    rw [tailLoop_refuse h (by omega) (by decide)]; simp
  | none =>
    rw [h1, uniqueIdDer, List.nil_append] at h hl
    cases h2 : t.subjectUniqueID with
    | some c =>
      rw [h2, uniqueIdDer] at h hl
      have := le_tlv 0x82#8 c
      rw [List.length_append] at hl
      rw [tailLoop_refuse h (by omega) (by decide)]; simp
    | none =>
      rw [h2, uniqueIdDer, List.nil_append] at h hl
      rw [tailLoop_spec h hl]; rfl

end Verif.Proof
