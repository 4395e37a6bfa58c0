import Verif.Model.X509
import Verif.Proof.Cert
import Verif.Props.Verify

/-! What follows behind the array a parser reads: if the parser succeeds, it gives the same result when more bytes follow. -/

namespace Verif.Proof
open Verif.Model Verif.Spec Verif.Props

/-- The same span in an array that goes on with `p`. -/
def sExt (p : List Byte) (s : Span) : Span := ⟨s.rest ++ p, s.size⟩

def vExt (p : List Byte) (v : View) : View := ⟨sExt p v.data, v.offset⟩

variable {p : List Byte}

theorem get_ext {s : Span} {i : Nat} {b : Byte} (h : s.get i = .ok b) : (sExt p s).get i = .ok b := by
  unfold Span.get sExt at *
  split at h
  · next hi =>
    rw [if_pos hi]
    unfold rd at *
    cases hx : s.rest[i]? with
    | none => rw [hx] at h; exact nomatch h
    | some y =>
      rw [hx] at h
      have hlt := (List.getElem?_eq_some_iff.mp hx).1
      rw [List.getElem?_append_left hlt, hx]
      exact h
  · exact nomatch h

theorem bytes_ext {s : Span} (h : Span.Ok s) : (sExt p s).bytes = s.bytes := by
  rw [sExt, Span.bytes, Span.bytes, List.take_append_of_le_length h]

theorem lenLoop_ext {d : Span} : ∀ (k size off : Nat) {r}, lenLoop d k size off = .ok r → lenLoop (sExt p d) k size off = .ok r
  | 0, _, _, _, h => h
  | k + 1, size, off, r, h => by
    rw [lenLoop] at h ⊢
    obtain ⟨b, hb, h⟩ := bind_ok h
    rw [get_ext hb, ok_bind]
    exact lenLoop_ext k _ _ h

theorem readLen_ext {d : Span} {l : Byte} {off : Nat} {r} (h : readLen d l off = .ok r) : readLen (sExt p d) l off = .ok r := by
  rw [readLen] at h ⊢
  split at h
  · next hl => rw [if_pos hl]; exact lenLoop_ext _ _ _ h
  · next hl => rw [if_neg hl]; exact h

theorem read_ext {v : View} {r : (Byte × Span) × View} (h : v.read = .ok r) : (vExt p v).read = .ok ((r.1.1, sExt p r.1.2), vExt p r.2) ∧ Span.Ok r.1.2 := by
  rw [View.read] at h
  obtain ⟨id, h1, h⟩ := bind_ok h
  obtain ⟨l, h2, h⟩ := bind_ok h
  obtain ⟨q, h3, h⟩ := bind_ok h
  split at h
  · exact nomatch h
  · next hlt =>
    have h := Except.ok.inj h
    subst h
    constructor
    · rw [View.read, vExt]
      dsimp only
      rw [get_ext h1, ok_bind, get_ext h2, ok_bind, readLen_ext h3, ok_bind, if_neg (by rw [sExt]; simp; omega)]
      simp only [sExt, vExt]
      rw [List.drop_append_of_le_length (by omega)]
    · simp only [Span.Ok, List.length_drop]; omega

theorem view_ext (s : Span) : vExt p (viewOf s) = viewOf (sExt p s) := rfl

theorem peek_ext {v : View} {b : Byte} (h : v.peek = .ok b) : (vExt p v).peek = .ok b := get_ext h

theorem empty_ext (v : View) : (vExt p v).empty = v.empty := rfl

theorem drop_ext {s s' : Span} {k : Nat} (h : s.drop k = .ok s') (ok : Span.Ok s) : (sExt p s).drop k = .ok (sExt p s') := by
  rw [Span.drop] at h ⊢
  split at h
  · next hk =>
    rw [if_pos (by simpa [sExt] using hk)]
    rw [← Except.ok.inj h]
    simp only [sExt]
    rw [List.drop_append_of_le_length (Nat.le_trans hk ok)]
  · exact nomatch h

theorem pure_ok {α : Type} {a b : α} (h : (pure a : Out α) = .ok b) : b = a := (Except.ok.inj h).symm

theorem parseDate_ext {v v' : View} {d : U64} (h : parseDate v = .ok (d, v')) : parseDate (vExt p v) = .ok (d, vExt p v') := by
  rw [parseDate] at h ⊢
  obtain ⟨r, h1, h⟩ := bind_ok h
  obtain ⟨e, h2, h⟩ := bind_ok h
  obtain ⟨x, ok⟩ := read_ext (p := p) h1
  obtain ⟨rfl, rfl⟩ := Prod.mk.inj (pure_ok h)
  rw [x, ok_bind]
  dsimp only
  rw [bytes_ext ok, h2]
  rfl

theorem parseString_ext {v v' : View} {d : List Byte} (h : parseString v = .ok (d, v')) : parseString (vExt p v) = .ok (d, vExt p v') := by
  rw [parseString] at h ⊢
  obtain ⟨r, h1, h⟩ := bind_ok h
  obtain ⟨x, ok⟩ := read_ext (p := p) h1
  rw [x, ok_bind]
  dsimp only
  rw [bytes_ext ok]
  split at h
  · next hc =>
    obtain ⟨rfl, rfl⟩ := Prod.mk.inj (pure_ok h)
    rw [if_pos hc]; rfl
  · next hc =>
    obtain ⟨rfl, rfl⟩ := Prod.mk.inj (pure_ok h)
    rw [if_neg hc]; rfl

theorem readOid_ext {v v' : View} {d : List Byte × List Byte} (h : readOidAndString v = .ok (d, v')) : readOidAndString (vExt p v) = .ok (d, vExt p v') := by
  rw [readOidAndString] at h ⊢
  obtain ⟨r, h1, h⟩ := bind_ok h
  obtain ⟨x, ok⟩ := read_ext (p := p) h1
  rw [x, ok_bind]
  dsimp only
  split at h
  · next hc =>
    obtain ⟨rfl, rfl⟩ := Prod.mk.inj (pure_ok h)
    rw [if_pos hc]; rfl
  · next hc =>
    rw [if_neg hc]
    obtain ⟨r2, h2, h⟩ := bind_ok h
    obtain ⟨x2, ok2⟩ := read_ext (p := p) h2
    rw [view_ext] at x2
    rw [x2, ok_bind]
    dsimp only
    split at h
    · next hc =>
      obtain ⟨rfl, rfl⟩ := Prod.mk.inj (pure_ok h)
      rw [if_pos hc]; rfl
    · next hc =>
      rw [if_neg hc]
      obtain ⟨r3, h3, h⟩ := bind_ok h
      obtain ⟨x3, ok3⟩ := read_ext (p := p) h3
      rw [view_ext] at x3
      rw [x3, ok_bind]
      dsimp only
      split at h
      · next hc =>
        obtain ⟨rfl, rfl⟩ := Prod.mk.inj (pure_ok h)
        rw [if_pos hc]; rfl
      · next hc =>
        rw [if_neg hc]
        obtain ⟨s, h4, h⟩ := bind_ok h
        obtain ⟨rfl, rfl⟩ := Prod.mk.inj (pure_ok h)
        rw [parseString_ext (v' := s.2) (d := s.1) h4, ok_bind, bytes_ext ok3]
        rfl

theorem nameLoop_ext : ∀ (k : Nat) (rv : Name) {v v' : View} {d : Name}, nameLoop k rv v = .ok (d, v') → nameLoop k rv (vExt p v) = .ok (d, vExt p v')
  | 0, _, _, _, _, h => nomatch h
  | k + 1, rv, v, v', d, h => by
    rw [nameLoop] at h ⊢
    rw [empty_ext]
    split at h
    · next hc =>
      obtain ⟨rfl, rfl⟩ := Prod.mk.inj (Except.ok.inj h)
      rw [if_pos hc]
    · next hc =>
      rw [if_neg hc]
      obtain ⟨r, h1, h⟩ := bind_ok h
      rw [readOid_ext (v' := r.2) (d := r.1) h1, ok_bind]
      dsimp only
      cases hn : nameSet rv r.1.1 r.1.2 with
      | none =>
        rw [hn] at h
        obtain ⟨rfl, rfl⟩ := Prod.mk.inj (Except.ok.inj h)
        rfl
      | some rv' =>
        rw [hn] at h
        exact nameLoop_ext k rv' h

theorem parseName_ext {v v' : View} {d : Name} (h : parseName v = .ok (d, v')) : parseName (vExt p v) = .ok (d, vExt p v') := nameLoop_ext _ _ h

theorem parseInt_ext {v v' : View} {d : Int} (h : parseInt v = .ok (d, v')) : parseInt (vExt p v) = .ok (d, vExt p v') := by
  rw [parseInt] at h ⊢
  obtain ⟨r, h1, h⟩ := bind_ok h
  obtain ⟨x, ok⟩ := read_ext (p := p) h1
  rw [x, ok_bind]
  dsimp only
  rw [bytes_ext ok]
  split at h
  · next hc =>
    obtain ⟨rfl, rfl⟩ := Prod.mk.inj (pure_ok h)
    rw [if_pos hc]; rfl
  · next hc =>
    obtain ⟨rfl, rfl⟩ := Prod.mk.inj (pure_ok h)
    rw [if_neg hc]; rfl

theorem parseBignum_ext {N : Nat} {v v' : View} {d : List U32} (h : parseBignum N v = .ok (d, v')) : parseBignum N (vExt p v) = .ok (d, vExt p v') := by
  rw [parseBignum] at h ⊢
  obtain ⟨r, h1, h⟩ := bind_ok h
  obtain ⟨x, ok⟩ := read_ext (p := p) h1
  rw [x, ok_bind]
  dsimp only at h ⊢
  rw [bytes_ext ok]
  split at h
  · next hc =>
    obtain ⟨rfl, rfl⟩ := Prod.mk.inj (pure_ok h)
    rw [if_pos hc]; rfl
  · next hc =>
    obtain ⟨rfl, rfl⟩ := Prod.mk.inj (pure_ok h)
    rw [if_neg hc]; rfl

theorem parseRsaPubkey_ext {v v' : View} {k : RsaPub} (h : parseRsaPubkey v = .ok (k, v')) : parseRsaPubkey (vExt p v) = .ok (k, vExt p v') := by
  rw [parseRsaPubkey] at h ⊢
  obtain ⟨r, h1, h⟩ := bind_ok h
  obtain ⟨x, ok⟩ := read_ext (p := p) h1
  rw [x, ok_bind]
  dsimp only
  obtain ⟨n, h2, h⟩ := bind_ok h
  obtain ⟨e, h3, h⟩ := bind_ok h
  have x2 := parseBignum_ext (p := p) (v' := n.2) (d := n.1) h2
  rw [view_ext] at x2
  rw [x2, ok_bind, parseBignum_ext (v' := e.2) (d := e.1) h3, ok_bind]
  dsimp only
  split at h
  · exact nomatch h
  · next hc =>
    rw [if_neg hc]
    obtain ⟨y, h4, h⟩ := bind_ok h
    obtain ⟨rfl, rfl⟩ := Prod.mk.inj (pure_ok h)
    rw [h4, ok_bind]
    rfl

theorem parsePublicKey_ext {v : View} {k : Option RsaPub} (h : parsePublicKey v = .ok k) : parsePublicKey (vExt p v) = .ok k := by
  rw [parsePublicKey] at h ⊢
  obtain ⟨r, h1, h⟩ := bind_ok h
  obtain ⟨x, ok⟩ := read_ext (p := p) h1
  rw [x, ok_bind]
  dsimp only
  split at h
  · next hc => rw [if_pos hc]; exact h
  · next hc =>
    rw [if_neg hc]
    obtain ⟨r2, h2, h⟩ := bind_ok h
    obtain ⟨x2, ok2⟩ := read_ext (p := p) h2
    rw [view_ext] at x2
    rw [x2, ok_bind]
    dsimp only
    rw [bytes_ext ok2]
    split at h
    · next hc => rw [if_pos hc]; exact h
    · next hc =>
      rw [if_neg hc]
      split at h
      · next hc => rw [if_pos hc]; exact h
      · next hc =>
        rw [if_neg hc]
        obtain ⟨r3, h3, h⟩ := bind_ok h
        obtain ⟨x3, ok3⟩ := read_ext (p := p) h3
        rw [x3, ok_bind]
        dsimp only
        obtain ⟨s, h4, h⟩ := bind_ok h
        obtain ⟨y, h5, h⟩ := bind_ok h
        have x5 := parseRsaPubkey_ext (p := p) (v' := y.2) (k := y.1) h5
        rw [view_ext] at x5
        rw [drop_ext h4 ok3, ok_bind, x5, ok_bind]
        exact h

theorem parseVersion_ext {v : View} {o : Option View} (h : parseVersion v = .ok o) : parseVersion (vExt p v) = .ok (o.map (vExt p)) := by
  rw [parseVersion] at h ⊢
  obtain ⟨id, h1, h⟩ := bind_ok h
  rw [peek_ext h1, ok_bind]
  split at h
  · next hc =>
    rw [if_pos hc]
    obtain ⟨r, h2, h⟩ := bind_ok h
    obtain ⟨x, ok⟩ := read_ext (p := p) h2
    obtain ⟨i, h3, h⟩ := bind_ok h
    have x3 := parseInt_ext (p := p) (v' := i.2) (d := i.1) h3
    rw [view_ext] at x3
    rw [x, ok_bind]
    dsimp only
    rw [x3, ok_bind]
    dsimp only
    split at h
    · exact nomatch h
    · next hc =>
      rw [if_neg hc]
      split at h
      · next hc => rw [if_pos hc, pure_ok h]; rfl
      · next hc => rw [if_neg hc, pure_ok h]; rfl
  · next hc =>
    rw [if_neg hc, pure_ok h]; rfl

theorem tailLoop_ext : ∀ (k : Nat) {v : View} {b : Bool}, tailLoop k v = .ok b → tailLoop k (vExt p v) = .ok b
  | 0, _, _, h => nomatch h
  | k + 1, v, b, h => by
    rw [tailLoop] at h ⊢
    rw [empty_ext]
    split at h
    · next hc => rw [if_pos hc]; exact h
    · next hc =>
      rw [if_neg hc]
      obtain ⟨r, h1, h⟩ := bind_ok h
      obtain ⟨x, ok⟩ := read_ext (p := p) h1
      rw [x, ok_bind]
      dsimp only
      split at h
      · next hc => rw [if_pos hc]; exact tailLoop_ext k h
      · next hc => rw [if_neg hc]; exact h

/-- The same fields, read from other bytes. -/
structure SameFields (c c' : Cert) : Prop where
  serial : c'.serialNumber = c.serialNumber
  names : c'.fqdns = c.fqdns
  subject : c'.subject = c.subject
  issuer : c'.issuer = c.issuer
  start : c'.validity_start = c.validity_start
  stop : c'.validity_end = c.validity_end
  key : c'.pubkey = c.pubkey

theorem SameFields.refl (c : Cert) : SameFields c c := ⟨rfl, rfl, rfl, rfl, rfl, rfl, rfl⟩

theorem parseFields_ext {v : View} {der der' : List Byte} {c : Cert} (h : parseFields v der = .ok c) :
    ∃ c', parseFields (vExt p v) der' = .ok c' ∧ SameFields c c' ∧ (c.derCert = der ∧ c'.derCert = der' ∨ c.derCert = [] ∧ c'.derCert = []) := by
  have blank : ∀ {c : Cert}, (pure {} : Out Cert) = .ok c → ∃ c', (pure {} : Out Cert) = .ok c' ∧ SameFields c c' ∧ (c.derCert = der ∧ c'.derCert = der' ∨ c.derCert = [] ∧ c'.derCert = []) := by
    intro c h
    rw [pure_ok h]
    exact ⟨_, rfl, SameFields.refl _, .inr ⟨rfl, rfl⟩⟩
  rw [parseFields] at h ⊢
  obtain ⟨serial, h1, h⟩ := bind_ok h
  obtain ⟨r3, h2, h⟩ := bind_ok h
  rw [parseBignum_ext (v' := serial.2) (d := serial.1) h1, ok_bind]
  dsimp only
  rw [(read_ext h2).1, ok_bind]
  dsimp only
  split at h
  · next hc => rw [if_pos hc]; exact blank h
  next hc =>
  rw [if_neg hc]
  obtain ⟨r4, h3, h⟩ := bind_ok h
  rw [(read_ext h3).1, ok_bind]
  dsimp only
  split at h
  · next hc => rw [if_pos hc]; exact blank h
  next hc =>
  rw [if_neg hc]
  obtain ⟨issuer, h4, h⟩ := bind_ok h
  obtain ⟨r5, h5, h⟩ := bind_ok h
  have x4 := parseName_ext (p := p) (v' := issuer.2) (d := issuer.1) h4
  rw [view_ext] at x4
  rw [x4, ok_bind, (read_ext h5).1, ok_bind]
  dsimp only
  split at h
  · next hc => rw [if_pos hc]; exact blank h
  next hc =>
  rw [if_neg hc]
  obtain ⟨start, h6, h⟩ := bind_ok h
  obtain ⟨stop, h7, h⟩ := bind_ok h
  obtain ⟨r6, h8, h⟩ := bind_ok h
  have x6 := parseDate_ext (p := p) (v' := start.2) (d := start.1) h6
  rw [view_ext] at x6
  rw [x6, ok_bind, parseDate_ext (v' := stop.2) (d := stop.1) h7, ok_bind, (read_ext h8).1, ok_bind]
  dsimp only
  split at h
  · next hc => rw [if_pos hc]; exact blank h
  next hc =>
  rw [if_neg hc]
  obtain ⟨subject, h9, h⟩ := bind_ok h
  obtain ⟨r7, h10, h⟩ := bind_ok h
  have x9 := parseName_ext (p := p) (v' := subject.2) (d := subject.1) h9
  rw [view_ext] at x9
  rw [x9, ok_bind, (read_ext h10).1, ok_bind]
  dsimp only
  split at h
  · next hc => rw [if_pos hc]; exact blank h
  next hc =>
  rw [if_neg hc]
  obtain ⟨key, h11, h⟩ := bind_ok h
  obtain ⟨ok, h12, h⟩ := bind_ok h
  have x11 := parsePublicKey_ext (p := p) h11
  rw [view_ext] at x11
  rw [x11, ok_bind, show (vExt p r7.2).data.size = r7.2.data.size from rfl, tailLoop_ext _ h12, ok_bind]
  split at h
  · next hc =>
    rw [if_pos hc, pure_ok h]
    exact ⟨_, rfl, ⟨rfl, rfl, rfl, rfl, rfl, rfl, rfl⟩, .inl ⟨rfl, rfl⟩⟩
  · next hc => rw [if_neg hc]; exact blank h

end Verif.Proof
