import Verif.Proof.Name

/-! Property C73: distinguished names (src/X509Certificate.cpp:143-193, include/caligo/X509Certificate.h:16-54). -/

namespace Verif.Props
open Verif.Model Verif.Proof Verif.Spec

/-- The string under which a name is stored and looked up: `to_string(parseDer<x509name>(view))` for the DER encoding of the name. -/
def nameString (n : DistinguishedName) : Out (List Byte) := (parseName (viewOf (spanOf (nameDer n)))).map (fun r => nameToString r.1)

/-- A name that can be encoded: no empty set, and a size that fits in memory. -/
def Encodable (n : DistinguishedName) : Prop := (∀ r ∈ n, r ≠ []) ∧ (nameDer n).length < 2 ^ 64

/-- All attributes of a name: type and value. -/
def attributes (n : DistinguishedName) : List (List Byte × List Byte) := n.flatten.map (fun a => (a.oid, a.value))

/-- C73, full claim: equal strings only for names with the same attributes. -/
def C73_claim : Prop := ∀ m n : DistinguishedName, Encodable m → Encodable n → (∃ s, nameString m = .ok s ∧ nameString n = .ok s) →
  (attributes m).Perm (attributes n)

/-- Names for which the claim is proved: every set has one attribute, of a known type that occurs once, a PrintableString or UTF8String that is not
empty and contains no equals sign. -/
structure Plain (n : DistinguishedName) : Prop where
  one : ∀ r ∈ n, ∃ a, r = [a] ∧ a.oid ∈ attributeTypes.map oidContent ∧ (a.tag = 19#8 ∨ a.tag = 12#8) ∧ a.value ≠ [] ∧ 0x3d#8 ∉ a.value
  distinct : (n.flatten.map Attr.oid).Nodup

theorem nameString_eq (n : DistinguishedName) (h : Encodable n) : nameString n = .ok (nameToString (nameFold {} n)) := by
  obtain ⟨v, e⟩ := parseName_spec h.1 h.2 (at_whole (nameDer n))
  rw [nameString, e]; rfl

/-- Parsing a name that can be encoded always succeeds. -/
theorem C73_defined (n : DistinguishedName) (h : Encodable n) : ∃ s, nameString n = .ok s := ⟨_, nameString_eq n h⟩

theorem mem_types (o : List Byte) (h : o ∈ attributeTypes.map oidContent) : ∃ i < 13, o = fieldOid i := by
  obtain ⟨t, ht, rfl⟩ := List.mem_map.mp h
  obtain ⟨i, hi, rfl⟩ := List.mem_iff_getElem.mp ht
  exact ⟨i, hi, by rw [fieldOid]; simp [hi]⟩

theorem plain_heads : ∀ (n : DistinguishedName), (∀ r ∈ n, ∃ a, r = [a]) → n.filterMap List.head? = n.flatten
  | [], _ => rfl
  | r :: n, h => by
    obtain ⟨a, rfl⟩ := h r (by simp)
    rw [List.filterMap_cons, List.head?_cons, List.flatten_cons, plain_heads n (fun r hr => h r (by simp [hr]))]; rfl

theorem plain_mem {n : DistinguishedName} (h : Plain n) {a : Attr} (ha : a ∈ n.flatten) :
    a.oid ∈ attributeTypes.map oidContent ∧ attrString a = a.value ∧ a.value ≠ [] ∧ 0x3d#8 ∉ a.value := by
  obtain ⟨r, hr, har⟩ := List.mem_flatten.mp ha
  obtain ⟨b, rfl, h1, h2, h3, h4⟩ := h.one r hr
  rw [List.mem_singleton] at har
  subst har
  exact ⟨h1, by rw [attrString, if_pos h2], h3, h4⟩

theorem plain_get {n : DistinguishedName} (h : Plain n) (j : Nat) (hj : j < 13) :
    nameGet (nameFold {} n) j = (n.flatten.reverse.find? (fun a => decide (a.oid = fieldOid j))).elim [] attrString := by
  rw [nameFold_get n {} j hj, plain_heads n (fun r hr => let ⟨a, e, _⟩ := h.one r hr; ⟨a, e⟩)]
  · congr 1
    interval_cases j <;> rfl
  · intro r hr
    obtain ⟨a, e, ho, _⟩ := h.one r hr
    obtain ⟨i, hi, e'⟩ := mem_types _ ho
    exact ⟨a, [], i, e, hi, e'⟩

/-- An attribute is what the field of its type holds. -/
theorem plain_mem_iff {n : DistinguishedName} (h : Plain n) (j : Nat) (hj : j < 13) (x : List Byte) (hx : x ≠ []) :
    (fieldOid j, x) ∈ attributes n ↔ nameGet (nameFold {} n) j = x := by
  rw [plain_get h j hj]
  constructor
  · intro hm
    obtain ⟨a, ha, e⟩ := List.mem_map.mp hm
    injection e with e1 e2
    cases hf : n.flatten.reverse.find? (fun a => decide (a.oid = fieldOid j)) with
    | none =>
      rw [List.find?_eq_none] at hf
      exact absurd (decide_eq_true e1) (hf a (List.mem_reverse.mpr ha))
    | some b =>
      have hb : b.oid = fieldOid j := by simpa using List.find?_some hf
      have hbm := List.mem_reverse.mp (List.mem_of_find?_eq_some hf)
      have : b = a := List.inj_on_of_nodup_map h.distinct hbm ha (by rw [hb, e1])
      rw [this, Option.elim, (plain_mem h ha).2.1, e2]
  · intro hg
    cases hf : n.flatten.reverse.find? (fun a => decide (a.oid = fieldOid j)) with
    | none => rw [hf] at hg; exact absurd hg.symm hx
    | some b =>
      rw [hf, Option.elim] at hg
      have hb : b.oid = fieldOid j := by simpa using List.find?_some hf
      have hbm := List.mem_reverse.mp (List.mem_of_find?_eq_some hf)
      rw [(plain_mem h hbm).2.1] at hg
      exact List.mem_map.mpr ⟨b, hbm, by rw [hb, hg]⟩

theorem plain_clean {n : DistinguishedName} (h : Plain n) : ∀ i < 13, 0x3d#8 ∉ nameGet (nameFold {} n) i := by
  intro i hi
  rw [plain_get h i hi]
  cases hf : n.flatten.reverse.find? (fun a => decide (a.oid = fieldOid i)) with
  | none => simp
  | some b =>
    have hb := plain_mem h (List.mem_reverse.mp (List.mem_of_find?_eq_some hf))
    rw [Option.elim, hb.2.1]
    exact hb.2.2.2

/-- C73 for plain names, in any order of the attributes. -/
theorem C73_partial (m n : DistinguishedName) (em : Encodable m) (en : Encodable n) (hm : Plain m) (hn : Plain n)
    (h : ∃ s, nameString m = .ok s ∧ nameString n = .ok s) : (attributes m).Perm (attributes n) := by
  obtain ⟨s, h1, h2⟩ := h
  rw [nameString_eq m em] at h1
  rw [nameString_eq n en] at h2
  have hs : nameToString (nameFold {} m) = nameToString (nameFold {} n) := by
    injection h1 with h1; injection h2 with h2; rw [h1, h2]
  have hname := nameToString_inj _ _ (plain_clean hm) (plain_clean hn) hs
  have nodup : ∀ {k : DistinguishedName}, Plain k → (attributes k).Nodup := by
    intro k hk
    have : (attributes k).map Prod.fst = k.flatten.map Attr.oid := by rw [attributes, List.map_map]; rfl
    exact List.Nodup.of_map Prod.fst (this ▸ hk.distinct)
  have known : ∀ {k : DistinguishedName}, Plain k → ∀ p ∈ attributes k, p.2 ≠ [] ∧ ∃ i < 13, p.1 = fieldOid i := by
    intro k hk p hp
    obtain ⟨a, ha, rfl⟩ := List.mem_map.mp hp
    exact ⟨(plain_mem hk ha).2.2.1, mem_types _ (plain_mem hk ha).1⟩
  rw [List.perm_ext_iff_of_nodup (nodup hm) (nodup hn)]
  rintro ⟨o, x⟩
  constructor
  · intro hp
    obtain ⟨hx, i, hi, rfl⟩ := known hm _ hp
    exact (plain_mem_iff hn i hi x hx).mpr (hname ▸ (plain_mem_iff hm i hi x hx).mp hp)
  · intro hp
    obtain ⟨hx, i, hi, rfl⟩ := known hn _ hp
    exact (plain_mem_iff hm i hi x hx).mpr (hname ▸ (plain_mem_iff hn i hi x hx).mp hp)

/-- `C=US, O=Example, CN=a b` is such a name. -/
def demoName : DistinguishedName := [[⟨[0x55#8, 0x04#8, 0x06#8], 19#8, ascii "US"⟩], [⟨[0x55#8, 0x04#8, 0x0a#8], 12#8, ascii "Example"⟩],
  [⟨[0x55#8, 0x04#8, 0x03#8], 19#8, ascii "a b"⟩]]

example : Plain demoName where
  one := by
    intro r hr
    simp only [demoName, List.mem_cons, List.not_mem_nil, or_false] at hr
    rcases hr with rfl | rfl | rfl
    · exact ⟨⟨[0x55#8, 0x04#8, 0x06#8], 19#8, ascii "US"⟩, rfl, by decide +kernel, by decide, by decide +kernel, by decide +kernel⟩
    · exact ⟨⟨[0x55#8, 0x04#8, 0x0a#8], 12#8, ascii "Example"⟩, rfl, by decide +kernel, by decide, by decide +kernel, by decide +kernel⟩
    · exact ⟨⟨[0x55#8, 0x04#8, 0x03#8], 19#8, ascii "a b"⟩, rfl, by decide +kernel, by decide, by decide +kernel, by decide +kernel⟩
  distinct := by decide +kernel

example : Encodable demoName := ⟨by decide +kernel, by decide +kernel⟩
example : nameString demoName = .ok (ascii "C=US O=Example CN=a b") := by decide +kernel

theorem nameFold_unknown : ∀ (n : DistinguishedName) (rv : Name), (∀ r ∈ n, r ≠ []) →
    (∃ r ∈ n, ∃ a t, r = a :: t ∧ a.oid ∉ attributeTypes.map oidContent) → nameFold rv n = {}
  | [], _, _, ⟨_, hr, _⟩ => by simp at hr
  | [] :: n, _, hne, _ => absurd rfl (hne [] (by simp))
  | (b :: s) :: n, rv, hne, ⟨r, hr, a, t, e, ha⟩ => by
    rw [nameFold]
    cases hs : nameSet rv b.oid (attrString b) with
    | none => rfl
    | some rv' =>
      rcases List.mem_cons.mp hr with h | h
      · rw [e] at h
        injection h with h _
        rw [nameSet_unknown rv b.oid _ (fun i hi he => ha (by
          rw [h, he, fieldOid]
          exact List.mem_map.mpr ⟨attributeTypes.getD i [], by
            have : i < attributeTypes.length := hi
            simp [List.getD_eq_getElem?_getD, this], rfl⟩))] at hs
        exact nomatch hs
      · exact nameFold_unknown n rv' (fun r hr => hne r (by simp [hr])) ⟨r, h, a, t, e, ha⟩

/-- One attribute of an unknown type (for instance a domainComponent) makes the whole name empty, whatever the other attributes are. -/
theorem C73_unknown_partial (n : DistinguishedName) (hn : Encodable n)
    (h : ∃ r ∈ n, ∃ a t, r = a :: t ∧ a.oid ∉ attributeTypes.map oidContent) : nameString n = .ok [] := by
  rw [nameString_eq n hn, nameFold_unknown n {} hn.1 h]; rfl

def demoDomain (s : String) : DistinguishedName := [[⟨[0x09#8, 0x92#8, 0x26#8, 0x89#8, 0x93#8, 0xf2#8, 0x2c#8, 0x64#8, 0x01#8, 0x19#8], 22#8, ascii s⟩]]

example : ∃ r ∈ demoDomain "example", ∃ a t, r = a :: t ∧ a.oid ∉ attributeTypes.map oidContent :=
  ⟨_, List.mem_cons_self, _, _, rfl, by decide +kernel⟩

/-- C73 fails: separators inside a value are not escaped. `O=x CN=y` as one organization name and as organization `x`, common name `y`. -/
theorem C73_false_separator : ¬ C73_claim := fun h => absurd
  (h [[⟨[0x55#8, 0x04#8, 0x0a#8], 12#8, ascii "x CN=y"⟩]] [[⟨[0x55#8, 0x04#8, 0x0a#8], 12#8, ascii "x"⟩], [⟨[0x55#8, 0x04#8, 0x03#8], 12#8, ascii "y"⟩]]
    ⟨by decide +kernel, by decide +kernel⟩ ⟨by decide +kernel, by decide +kernel⟩ ⟨ascii "O=x CN=y", by decide +kernel, by decide +kernel⟩).length_eq (by decide)

/-- C73 fails: all names with an unknown attribute type share the empty string. -/
theorem C73_false_unknown : ¬ C73_claim := fun h => absurd
  (h (demoDomain "example") (demoDomain "evil") ⟨by decide +kernel, by decide +kernel⟩ ⟨by decide +kernel, by decide +kernel⟩
    ⟨[], by decide +kernel, by decide +kernel⟩) (by decide +kernel)

/-- C73 fails: of several attributes of the same type only the last is kept. -/
theorem C73_false_repeated : ¬ C73_claim := fun h => absurd
  (h [[⟨[0x55#8, 0x04#8, 0x0b#8], 12#8, ascii "a"⟩], [⟨[0x55#8, 0x04#8, 0x0b#8], 12#8, ascii "b"⟩]] [[⟨[0x55#8, 0x04#8, 0x0b#8], 12#8, ascii "b"⟩]]
    ⟨by decide +kernel, by decide +kernel⟩ ⟨by decide +kernel, by decide +kernel⟩ ⟨ascii "OU=b", by decide +kernel, by decide +kernel⟩).length_eq (by decide)

/-- C73 fails: of a set of attributes only the first is read. -/
theorem C73_false_set : ¬ C73_claim := fun h => absurd
  (h [[⟨[0x55#8, 0x04#8, 0x03#8], 12#8, ascii "a"⟩, ⟨[0x55#8, 0x04#8, 0x0b#8], 12#8, ascii "b"⟩]] [[⟨[0x55#8, 0x04#8, 0x03#8], 12#8, ascii "a"⟩]]
    ⟨by decide +kernel, by decide +kernel⟩ ⟨by decide +kernel, by decide +kernel⟩ ⟨ascii "CN=a", by decide +kernel, by decide +kernel⟩).length_eq (by decide)

/-- C73 fails: other string types are read as empty, for instance the IA5String that RFC 5280 prescribes for emailAddress. -/
theorem C73_false_string_type : ¬ C73_claim := fun h => absurd
  (h [[⟨[0x2a#8, 0x86#8, 0x48#8, 0x86#8, 0xf7#8, 0x0d#8, 0x01#8, 0x09#8, 0x01#8], 22#8, ascii "a@b"⟩]] []
    ⟨by decide +kernel, by decide +kernel⟩ ⟨by decide +kernel, by decide +kernel⟩ ⟨[], by decide +kernel, by decide +kernel⟩).length_eq (by decide)

end Verif.Props
