import Verif.Props.SignedFields

/-! Property C136: bytes of an accepted certificate that can be changed. -/

namespace Verif.Props
open Verif.Model Verif.Proof Verif.Spec

/-- C136, full claim: a certificate that an issuer's key accepts is the only file with its fields that this key accepts. -/
def C136_claim : Prop := ∀ (der der' : List Byte) (c c' i : Cert), parseCertificate der .Der = .ok c → parseCertificate der' .Der = .ok c' →
  c.verify i = .ok true → c'.verify i = .ok true → SameFields c c' → der = der'

theorem get_grow {s : Span} {i n : Nat} {b : Byte} (h : s.get i = .ok b) (hn : s.size ≤ n) : (Span.mk s.rest n).get i = .ok b := by
  rw [Span.get] at h ⊢
  split at h
  · rw [if_pos (by dsimp only; omega)]; exact h
  · exact nomatch h

theorem lenLoop_grow {d : Span} {n : Nat} (hn : d.size ≤ n) : ∀ (k size off : Nat) {r}, lenLoop d k size off = .ok r → lenLoop ⟨d.rest, n⟩ k size off = .ok r
  | 0, _, _, _, h => h
  | k + 1, size, off, r, h => by
    rw [lenLoop] at h ⊢
    obtain ⟨b, hb, h⟩ := bind_ok h
    rw [get_grow hb hn, ok_bind]
    exact lenLoop_grow hn k _ _ h

/-- A span that ends later gives the same element. -/
theorem read_grow {v : View} {n : Nat} {r : (Byte × Span) × View} (hn : v.data.size ≤ n) (h : v.read = .ok r) :
    (View.mk ⟨v.data.rest, n⟩ v.offset).read = .ok (r.1, ⟨⟨v.data.rest, n⟩, r.2.offset⟩) := by
  rw [View.read] at h ⊢
  obtain ⟨id, h1, h⟩ := bind_ok h
  obtain ⟨l, h2, h⟩ := bind_ok h
  obtain ⟨q, h3, h⟩ := bind_ok h
  have h3' : readLen ⟨v.data.rest, n⟩ l (v.offset + 2) = .ok q := by
    rw [readLen] at h3 ⊢
    split at h3
    · next hl => rw [if_pos hl]; exact lenLoop_grow hn _ _ _ h3
    · next hl => rw [if_neg hl]; exact h3
  dsimp only
  rw [get_grow h1 hn, ok_bind, get_grow h2 hn, ok_bind, h3', ok_bind]
  split at h
  · exact nomatch h
  · next hlt =>
    rw [if_neg hlt, ← Except.ok.inj h]

theorem root_append {der p : List Byte} {r : (Byte × Span) × View} (h : (viewOf (spanOf der)).read = .ok r) :
    ∃ v, (viewOf (spanOf (der ++ p))).read = .ok ((r.1.1, sExt p r.1.2), v) := by
  have h1 := (read_ext (p := p) h).1
  have h2 := read_grow (n := (der ++ p).length) (by simp [vExt, sExt, viewOf, spanOf]) h1
  exact ⟨_, h2⟩

theorem verifySignature_append {der : List Byte} {k : Option RsaPub} {b : Bool} (p : List Byte) (h : verifySignature der k = .ok b) :
    verifySignature (der ++ p) k = .ok b := by
  rw [verifySignature] at h ⊢
  obtain ⟨root, h1, h⟩ := bind_ok h
  obtain ⟨v, e1⟩ := root_append (p := p) h1
  rw [e1, ok_bind]
  dsimp only
  split at h
  · next hc => rw [if_pos hc]; exact h
  next hc =>
  rw [if_neg hc]
  obtain ⟨cert, h2, h⟩ := bind_ok h
  have e2 := read_ext (p := p) h2
  rw [view_ext] at e2
  rw [e2.1, ok_bind]
  dsimp only
  split at h
  · next hc => rw [if_pos hc]; exact h
  next hc =>
  rw [if_neg hc]
  obtain ⟨algo, h3, h⟩ := bind_ok h
  have e3 := read_ext (p := p) h3
  rw [e3.1, ok_bind]
  obtain ⟨sig, h4, h⟩ := bind_ok h
  have e4 := read_ext (p := p) h4
  dsimp only
  rw [e4.1, ok_bind]
  dsimp only
  split at h
  · next hc => rw [if_pos hc]; exact h
  next hc =>
  rw [if_neg hc]
  split at h
  · next hc => rw [if_pos hc]; exact h
  next hc =>
  rw [if_neg hc]
  obtain ⟨oid, h5, h⟩ := bind_ok h
  have e5 := read_ext (p := p) h5
  rw [view_ext] at e5
  rw [e5.1, ok_bind]
  dsimp only
  rw [bytes_ext e5.2, bytes_ext e4.2, bytes_ext e2.2]
  exact h

/-- C136: whatever is appended to a certificate file, the fields are the same, and so is what `verify` says, for every issuer. -/
theorem C136_append_partial (der p : List Byte) (c : Cert) (h : parseCertificate der .Der = .ok c) :
    ∃ c', parseCertificate (der ++ p) .Der = .ok c' ∧ SameFields c c' ∧ ∀ i b, c.verify i = .ok b → c'.verify i = .ok b := by
  change parseCertDer der = _ at h
  change ∃ c', parseCertDer (der ++ p) = _ ∧ _
  have blank : ∀ {c : Cert}, (pure {} : Out Cert) = .ok c → ∃ c', (pure {} : Out Cert) = .ok c' ∧ SameFields c c' ∧ ∀ i b, c.verify i = .ok b → c'.verify i = .ok b := by
    intro c h
    rw [pure_ok h]
    exact ⟨_, rfl, SameFields.refl _, fun _ _ h => h⟩
  rw [parseCertDer] at h ⊢
  obtain ⟨root, h1, h⟩ := bind_ok h
  obtain ⟨v, e1⟩ := root_append (p := p) h1
  rw [e1, ok_bind]
  dsimp only
  split at h
  · next hc => rw [if_pos hc]; exact blank h
  next hc =>
  rw [if_neg hc]
  obtain ⟨cert, h2, h⟩ := bind_ok h
  have e2 := (read_ext (p := p) h2).1
  rw [view_ext] at e2
  rw [e2, ok_bind]
  dsimp only
  split at h
  · next hc => rw [if_pos hc]; exact blank h
  next hc =>
  rw [if_neg hc]
  obtain ⟨ver, h3, h⟩ := bind_ok h
  have e3 := parseVersion_ext (p := p) h3
  rw [view_ext] at e3
  rw [e3, ok_bind]
  cases ver with
  | none => exact blank h
  | some cdata =>
    obtain ⟨c', e4, same, hd⟩ := parseFields_ext (p := p) (der' := der ++ p) h
    refine ⟨c', e4, same, fun i b hv => ?_⟩
    rw [verify_nested_iff] at hv ⊢
    rw [same.start, same.stop]
    split at hv
    · next hn =>
      rw [if_pos hn]
      rcases hd with ⟨d1, d2⟩ | ⟨d1, d2⟩
      · rw [d1] at hv
        rw [d2]
        exact verifySignature_append p hv
      · rw [d1] at hv
        rw [d2]
        exact hv
    · next hn => rw [if_neg hn]; exact hv

/-- A case that meets the hypotheses of `C136_append_partial`. -/
example : ∃ c, parseCertificate (certDer (demoTbs 4711 65537 none) [] []) .Der = .ok c :=
  let ⟨c, h, _⟩ := C80_partial (demoTbs 4711 65537 none) [] [] (demoTbs_ordinary _ _ _ (by decide) (by decide +kernel)) ⟨rfl, rfl⟩ (by decide) (by decide) (by decide +kernel)
  ⟨c, h⟩

/-- A certificate in DER, with the tag of the object identifier, the parameters of the algorithm and the octet of unused bits left open. -/
def looseCert (tbs oid sig : List Byte) (tag : Byte) (par : List Byte) (u : Byte) : List Byte :=
  tlv 0x30#8 (tlv 0x30#8 tbs ++ (tlv 0x30#8 (tlv tag oid ++ par) ++ tlv 0x03#8 (u :: sig)))

/-- C136: the tag of the object identifier, the parameters of the signature algorithm and the number of unused bits do not matter to `verify`, which looks at
the dates, the signed part, the content of the object identifier and the signature. -/
theorem C136_unsigned_partial (tbs oid sig : List Byte) (tag tag' : Byte) (par par' : List Byte) (u u' : Byte) (c c' i : Cert)
    (hl : (looseCert tbs oid sig tag par u).length < 2 ^ 64) (hl' : (looseCert tbs oid sig tag' par' u').length < 2 ^ 64)
    (hc : c.derCert = looseCert tbs oid sig tag par u) (hc' : c'.derCert = looseCert tbs oid sig tag' par' u') (hs : SameFields c c') : c'.verify i = c.verify i := by
  rw [verify_nested_iff, verify_nested_iff, hs.start, hs.stop, hc, hc', looseCert, looseCert, verifySignature_der _ _ _ _ _ _ _ hl, verifySignature_der _ _ _ _ _ _ _ hl']

/-- C136 fails: a byte can be appended to an accepted certificate. -/
theorem C136_false : ¬ C136_claim := by
  intro claim
  obtain ⟨i, tbs, X, h⟩ := accepted_files
  obtain ⟨-, c, k, h1, -, -, h2⟩ := h 3 (.inl rfl)
  obtain ⟨c', h3, same, h4⟩ := C136_append_partial _ [0x00#8] c h1
  have := congrArg List.length (claim _ _ c c' i h1 h3 h2 (h4 i true h2) same)
  rw [List.length_append] at this
  simp at this

/-- The hypotheses of `C136_unsigned_partial` hold for a certificate whose parameters are absent and one with an octet string of parameters. -/
example : ∃ c c' : Cert, (looseCert [1#8] [2#8] [3#8] 0x06#8 [] 0x00#8).length < 2 ^ 64 ∧ (looseCert [1#8] [2#8] [3#8] 0x04#8 [0x04#8, 0x00#8] 0x07#8).length < 2 ^ 64 ∧
    c.derCert = looseCert [1#8] [2#8] [3#8] 0x06#8 [] 0x00#8 ∧ c'.derCert = looseCert [1#8] [2#8] [3#8] 0x04#8 [0x04#8, 0x00#8] 0x07#8 ∧ SameFields c c' ∧
    looseCert [1#8] [2#8] [3#8] 0x06#8 [] 0x00#8 ≠ looseCert [1#8] [2#8] [3#8] 0x04#8 [0x04#8, 0x00#8] 0x07#8 :=
  ⟨{ derCert := looseCert [1#8] [2#8] [3#8] 0x06#8 [] 0x00#8 }, { derCert := looseCert [1#8] [2#8] [3#8] 0x04#8 [0x04#8, 0x00#8] 0x07#8 }, by decide +kernel, by decide +kernel, rfl, rfl,
    ⟨rfl, rfl, rfl, rfl, rfl, rfl, rfl⟩, by decide +kernel⟩

end Verif.Props
