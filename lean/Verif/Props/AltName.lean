import Verif.Spec.AltName
import Verif.Props.Issuer

/-! C100: the host names a certificate applies to. -/

namespace Verif.Props
open Verif.Model Verif.Proof Verif.Spec

/-- C100, the full claim: a parsed certificate with host names (no wildcards) in its subjectAltName extension applies to these and to nothing else. -/
def C100_claim : Prop := ∀ (t : Tbs) (algorithm signature : List Byte) (names : List (List Byte)) (c : Cert), Ordinary t → t.hosts names → names ≠ [] →
  (∀ n ∈ names, n ≠ [] ∧ 0x2a#8 ∉ n) → parseCertificate (certDer t algorithm signature) .Der = .ok c → (certDer t algorithm signature).length < 2 ^ 64 →
  ∀ fqdn, c.appliesTo fqdn = true ↔ ∃ n ∈ names, sameHost fqdn n

/-- C100, what the code does: whatever the extensions, the certificate applies to its common name, byte for byte, and to nothing else. Missing: the names of
the extension, and the case of letters. -/
theorem C100_partial (t : Tbs) (extensions : List Extension) (algorithm signature : List Byte) (h : Ordinary t) (hu : t.issuerUniqueID = none ∧ t.subjectUniqueID = none)
    (he : 17 ≤ t.exponent) (hl : (certDer { t with extensions := extensions } algorithm signature).length < 2 ^ 64) :
    ∃ c, parseCertificate (certDer { t with extensions := extensions } algorithm signature) .Der = .ok c ∧
      ∀ fqdn, c.appliesTo fqdn = true ↔ fqdn = commonName t.subject := by
  have e := parse_cert { t with extensions := extensions } algorithm signature h.issuer.1 h.subject.1 h.start h.stop h.key hl
  rw [if_neg (by dsimp only; omega), if_neg (by simpa using hu)] at e
  obtain ⟨c, p, -, -, -, -, -, -, -, h8⟩ := e
  refine ⟨c, p, fun fqdn => ?_⟩
  rw [Cert.appliesTo, h8, plain_commonName h.subject.2]
  simp

/-- C100: a certificate without a common name applies to the empty name. -/
theorem C100_empty_partial (t : Tbs) (algorithm signature : List Byte) (h : Ordinary t) (hu : t.issuerUniqueID = none ∧ t.subjectUniqueID = none)
    (he : 17 ≤ t.exponent) (hl : (certDer t algorithm signature).length < 2 ^ 64) (hc : ∀ a ∈ t.subject.flatten, a.oid ≠ oidContent [2, 5, 4, 3]) :
    ∃ c, parseCertificate (certDer t algorithm signature) .Der = .ok c ∧ c.appliesTo [] = true := by
  obtain ⟨c, p, ha⟩ := C100_partial t t.extensions algorithm signature h hu he hl
  refine ⟨c, p, (ha []).mpr ?_⟩
  have : t.subject.flatten.reverse.find? (fun a => decide (a.oid = oidContent [2, 5, 4, 3])) = none := by
    rw [List.find?_eq_none]
    intro a ha
    simpa using hc a (List.mem_reverse.mp ha)
  rw [commonName, this]; rfl

/-- L, with the host name `h` in the extension -/
def altTbs : Tbs := chainTbs 1 0x4d#8 0x4c#8 (2 ^ 127 - 1) [⟨subjectAltName, false, altNameValue [[0x68#8]]⟩]

theorem altTbs_ordinary : Ordinary altTbs :=
  ⟨by change 1 < 2 ^ 159; decide, cn_ok _ (by simp [Letter]), cn_ok _ (by simp [Letter]), demoStart, demoStop, by unfold GoodKey; decide +kernel⟩

/-- The claim fails for a certificate for the host `h` with the common name `L`. -/
theorem C100_false : ¬ C100_claim := by
  intro h
  obtain ⟨c, p, ha⟩ := C100_partial altTbs altTbs.extensions chainAlg [] altTbs_ordinary ⟨rfl, rfl⟩ (by decide +kernel) (by decide +kernel)
  have := (h altTbs chainAlg [] [[0x68#8]] c altTbs_ordinary (by unfold Tbs.hosts; decide +kernel) (by simp) (by decide) p (by decide +kernel) [0x68#8]).mpr ⟨_, List.mem_singleton.mpr rfl, rfl⟩
  have := (ha _).mp this
  revert this
  decide +kernel

example : Ordinary altTbs ∧ altTbs.hosts [[0x68#8]] ∧ 17 ≤ altTbs.exponent ∧ (certDer altTbs chainAlg []).length < 2 ^ 64 :=
  ⟨altTbs_ordinary, by unfold Tbs.hosts; decide +kernel, by decide +kernel, by decide +kernel⟩

/-- A plain name without a common name: the organisation `L`. -/
example : ∃ t : Tbs, Ordinary t ∧ (∀ a ∈ t.subject.flatten, a.oid ≠ oidContent [2, 5, 4, 3]) ∧ t.subject ≠ [] := by
  refine ⟨{ altTbs with subject := [[⟨oidContent [2, 5, 4, 10], 12#8, [0x4c#8]⟩]] }, ⟨altTbs_ordinary.serial, altTbs_ordinary.issuer, ⟨⟨by simp, by decide +kernel⟩, ⟨?_, by simp⟩⟩,
    demoStart, demoStop, altTbs_ordinary.key⟩, by decide +kernel, by simp⟩
  intro r hr
  rw [List.mem_singleton] at hr
  subst hr
  refine ⟨_, rfl, ?_, Or.inr rfl, by simp, by decide⟩
  change oidContent [2, 5, 4, 10] ∈ attributeTypes.map oidContent
  decide +kernel

end Verif.Props
