import Verif.Props.Issuer

/-! Property C108: from the bytes of certificates to the verdict of `Truststore::trust`. -/

namespace Verif.Props
open Verif.Model Verif.Proof Verif.Spec

/-- A certificate as its issuer writes it: the signed part, content octets of the identifier of the signature algorithm, its parameters, the signature. -/
structure Item where
  t : Tbs
  oid : List Byte
  par : List Byte
  sig : List Byte

def Item.der (x : Item) : List Byte := certDer x.t (tlv 0x06#8 x.oid ++ x.par) x.sig

/-- Certificates the theorem is about: plain names, dates the library converts correctly, an odd modulus and an exponent of at least 17 that fit in 4096 bits, a
serial number below `2^128`, no unique identifiers, less than 16 MiB. -/
structure Item.Good (x : Item) : Prop where
  ordinary : Ordinary x.t
  ids : x.t.issuerUniqueID = none ∧ x.t.subjectUniqueID = none
  exponent : 17 ≤ x.t.exponent
  serial : x.t.serial < 2 ^ 128
  size : x.der.length < 2 ^ 24

/-- The signature of `x` is one made with the private key that belongs to the public key in `y`: raised to the exponent it is, modulo the modulus, the encoded
message of RFC 8017 9.2 for the octets of the signed part, with as many octets as the signature. -/
def SignedBy (x y : Item) : Prop := ∃ h alg hid, rsaSignatureAlgorithm h = some alg ∧ x.oid = oidContent alg ∧ hashOid h = some hid ∧ digestLength h + 19 < x.sig.length ∧
  (beNat x.sig % 2 ^ 4096) ^ y.t.exponent ≡ beNat ([0x00#8, 0x01#8] ++ List.replicate (x.sig.length - digestLength h - 22) 0xFF#8 ++ [0x00#8] ++
    digestInfo hid (digest h (tbsDer x.t))) % 2 ^ 4096 [MOD y.t.modulus] ∧
  (x.sig.length = octetLength y.t.modulus → beNat x.sig < y.t.modulus → digestLength h + 30 ≤ x.sig.length → rsassaPkcs1Verify h y.t.modulus y.t.exponent (tbsDer x.t) x.sig)

/-- `y` issued `x`: the name, the dates and the signature. -/
structure IssuedBy (x y : Item) : Prop where
  name : (attributes x.t.issuer).Perm (attributes y.t.subject)
  dates : unixTime y.t.notBefore ≤ unixTime x.t.notBefore ∧ unixTime x.t.notAfter ≤ unixTime y.t.notAfter
  signature : SignedBy x y

/-- Parsing a list of files. -/
def parseAll (items : List Item) : Out (List Cert) := items.mapM (fun x => parseCertificate x.der .Der)

theorem item_carries {x : Item} (h : x.Good) : ∃ c, parseCertificate x.der .Der = .ok c ∧ Carries c x.t x.der :=
  C80_partial x.t _ x.sig h.ordinary h.ids h.exponent h.serial (Nat.lt_trans h.size (by decide))

/-- Every object comes from one of the files. -/
theorem parseAll_mem : ∀ {items : List Item} {certs : List Cert}, parseAll items = .ok certs → (∀ x ∈ items, x.Good) →
    List.Forall₂ (fun x c => Carries c x.t x.der) items certs
  | [], certs, h, _ => by
    have : [] = certs := Except.ok.inj h
    subst this
    exact .nil
  | x :: l, certs, h, hg => by
    obtain ⟨c, e, hc⟩ := item_carries (hg x (by simp))
    rw [parseAll, List.mapM_cons, e, ok_bind] at h
    cases h2 : l.mapM (fun x => parseCertificate x.der .Der) with
    | error f => rw [h2] at h; exact nomatch h
    | ok t =>
      rw [h2, ok_bind] at h
      have : c :: t = certs := Except.ok.inj h
      subst this
      exact .cons hc (parseAll_mem h2 (fun y hy => hg y (by simp [hy])))

/-- All of them are read. -/
theorem parseAll_ok : ∀ (items : List Item), (∀ x ∈ items, x.Good) → ∃ certs, parseAll items = .ok certs
  | [], _ => ⟨[], rfl⟩
  | x :: l, hg => by
    obtain ⟨c, e, _⟩ := item_carries (hg x (by simp))
    obtain ⟨t, ht⟩ := parseAll_ok l (fun y hy => hg y (by simp [hy]))
    refine ⟨c :: t, ?_⟩
    rw [parseAll] at ht ⊢
    rw [List.mapM_cons, e, ok_bind, ht]
    rfl

theorem forall₂_right {α β : Type} {R : α → β → Prop} : ∀ {l : List α} {m : List β}, List.Forall₂ R l m → ∀ y ∈ m, ∃ x ∈ l, R x y
  | _, _, .nil, y, hy => absurd hy (by simp)
  | _, _, .cons h t, y, hy => by
    rcases List.mem_cons.mp hy with rfl | hy
    · exact ⟨_, by simp, h⟩
    · obtain ⟨x, hx, hr⟩ := forall₂_right t y hy
      exact ⟨x, by simp [hx], hr⟩

/-- One link: what `verify` and equal name strings mean for the files. -/
theorem link_items {x y : Item} {c i : Cert} (hx : x.Good) (hy : y.Good) (hc : Carries c x.t x.der) (hi : Carries i y.t y.der)
    (hn : c.issuer = i.subject) (hv : c.verify i = .ok true) : IssuedBy x y := by
  obtain ⟨k, kp, l1, l2, v1, v2, made⟩ := hi.key
  have gk := hy.ordinary.key
  have hk : KeyOk k := ⟨l1, l2, by rw [v1]; exact gk.2.2.1, by rw [v1]; exact gk.2.2.2, made⟩
  have hd : c.derCert = simpleCert (tbsContent x.t) x.oid x.par x.sig := by rw [hc.der]; rfl
  have hl : c.derCert.length < 2 ^ 24 := by rw [hc.der]; exact hx.size
  have hnest := verify_nested hv
  refine ⟨?_, ?_, ?_⟩
  · exact C73_partial _ _ hx.ordinary.issuer.1 hy.ordinary.subject.1 hx.ordinary.issuer.2 hy.ordinary.subject.2 ⟨c.issuer, hc.issuer, by rw [hn]; exact hi.subject⟩
  · have a1 := hc.start
    have a2 := hc.stop
    have a3 := hi.start
    have a4 := hi.stop
    rw [BitVec.le_def, BitVec.le_def] at hnest
    omega
  · have hs := hv
    rw [verify_nested_iff, if_pos hnest, hd, simpleCert, verifySignature_der _ _ _ _ _ _ _ (by rw [hd, simpleCert] at hl; omega), kp] at hs
    dsimp only at hs
    have lt := le_tlv 0x30#8 (tlv 0x30#8 (tbsContent x.t) ++ (tlv 0x30#8 (tlv 0x06#8 x.oid ++ x.par) ++ tlv 0x03#8 (0x00#8 :: x.sig)))
    have lt1 := le_tlv 0x30#8 (tbsContent x.t)
    have lt2 := le_tlv 0x03#8 (0x00#8 :: x.sig)
    rw [hd, simpleCert] at hl
    simp only [List.length_append, List.length_cons] at lt lt2
    by_cases hu : ∃ h alg, rsaSignatureAlgorithm h = some alg ∧ x.oid = oidContent alg
    · obtain ⟨h, alg, ha, ho⟩ := hu
      rw [ho, validateSignature_known k h alg ha] at hs
      have hs' : validatePkcs1 4096 k h (tbsContent x.t) x.sig.reverse = .ok true := hs
      obtain ⟨hid, hhid, hlen, he⟩ := validate_true k hk h alg ha (tbsContent x.t) x.sig (by omega) (by omega) hs'
      refine ⟨h, alg, hid, ha, ho, hhid, hlen, by rw [v1, v2] at he; exact he, fun q1 q2 q3 => ?_⟩
      obtain ⟨b, hb, hbi⟩ := verify_known c i k (tbsContent x.t) x.par x.sig h alg (by rw [hd, ho]) kp hk ha (by rw [hc.der]; exact hx.size) (by rw [v1]; exact q1) q3
      rw [hv] at hb
      obtain rfl : true = b := Except.ok.inj hb
      obtain ⟨_, o, ho', e⟩ := hbi.mp rfl
      rw [v1, v2] at e
      exact ⟨q1, q2, o, ho', q1 ▸ e⟩
    · rw [validateSignature_unknown k x.oid _ _ hu] at hs
      exact nomatch hs

/-- C108: for any bytes of certificates, if all are good and `trust` returns true, the first one presented is the beginning of a chain of issued certificates, all of
them presented, up to one of the trusted ones; all of them are valid at the time given. -/
theorem C108_sound (roots items : List Item) (added certs certs' : List Cert) (now : U64) (hr : ∀ x ∈ roots, x.Good) (hi : ∀ x ∈ items, x.Good)
    (pr : parseAll roots = .ok added) (pi : parseAll items = .ok certs) (h : (storeOf added).trust certs now = .ok (true, certs')) :
    ∃ chain root, chain ≠ [] ∧ chain.head? = items.head? ∧ (∀ x ∈ chain, x ∈ items) ∧ root ∈ roots ∧ List.IsChain IssuedBy (chain ++ [root]) ∧
      ∀ x ∈ chain ++ [root], unixTime x.t.notBefore ≤ now.toNat ∧ (now.toNat : Int) ≤ unixTime x.t.notAfter := by
  have fr := parseAll_mem pr hr
  have fi := parseAll_mem pi hi
  obtain ⟨chain, root, hc, hv⟩ := C75 added certs certs' now h
  -- the root is one of the certificates added
  have hroot : root ∈ added := by
    have := hc.root
    rw [C78_get] at this
    exact List.mem_reverse.mp (List.mem_of_find?_eq_some this)
  obtain ⟨r, hr1, hr2⟩ := forall₂_right fr root hroot
  have valid : ∀ {x : Item} {c : Cert}, Carries c x.t x.der → ValidAt now c → unixTime x.t.notBefore ≤ now.toNat ∧ (now.toNat : Int) ≤ unixTime x.t.notAfter := by
    intro x c hx hv
    have a1 := hx.start
    have a2 := hx.stop
    rw [ValidAt, BitVec.le_def, BitVec.le_def] at hv
    omega
  -- the certificates of a chain and their files
  have key : ∀ (l : List Cert), (∀ c ∈ l, c ∈ certs) → List.IsChain (fun c i => c.issuer = i.subject ∧ c.verify i = .ok true) (l ++ [root]) → (∀ c ∈ l, ValidAt now c) →
      ∀ x, (∀ c, l.head? = some c → x ∈ items ∧ Carries c x.t x.der) → l ≠ [] →
      ∃ m, m.head? = some x ∧ (∀ y ∈ m, y ∈ items) ∧ List.IsChain IssuedBy (m ++ [r]) ∧ ∀ y ∈ m, unixTime y.t.notBefore ≤ now.toNat ∧ (now.toNat : Int) ≤ unixTime y.t.notAfter := by
    intro l
    induction l with
    | nil => intro _ _ _ _ _ hne; exact absurd rfl hne
    | cons c l ih =>
      intro hm hl hval x hx _
      obtain ⟨hx1, hx2⟩ := hx c rfl
      have hvx := valid hx2 (hval c (by simp))
      cases l with
      | nil =>
        simp only [List.cons_append, List.nil_append, List.isChain_cons_cons] at hl
        refine ⟨[x], rfl, by simpa using hx1, ?_, by simpa using hvx⟩
        simp only [List.cons_append, List.nil_append, List.isChain_cons_cons]
        exact ⟨link_items (hi x hx1) (hr r hr1) hx2 hr2 hl.1.1 hl.1.2, by simp⟩
      | cons d l =>
        simp only [List.cons_append, List.isChain_cons_cons] at hl
        obtain ⟨y, hy1, hy2⟩ := forall₂_right fi d (hm d (by simp))
        obtain ⟨m, m1, m2, m3, m4⟩ := ih (fun e he => hm e (by simp [he])) (by simpa using hl.2) (fun e he => hval e (by simp [he])) y
          (fun e he => by injection he with he; subst he; exact ⟨hy1, hy2⟩) (by simp)
        refine ⟨x :: m, rfl, ?_, ?_, ?_⟩
        · intro z hz
          rcases List.mem_cons.mp hz with rfl | hz
          · exact hx1
          · exact m2 z hz
        · obtain ⟨m', rfl⟩ : ∃ m', m = y :: m' := by
            cases m with
            | nil => exact nomatch m1
            | cons a m' => injection m1 with m1; exact ⟨m', by rw [m1]⟩
          simp only [List.cons_append, List.isChain_cons_cons]
          exact ⟨link_items (hi x hx1) (hi y hy1) hx2 hy2 hl.1.1 hl.1.2, by simpa using m3⟩
        · intro z hz
          rcases List.mem_cons.mp hz with rfl | hz
          · exact hvx
          · exact m4 z hz
  -- the first certificate is the one of the first file
  cases items with
  | nil =>
    cases fi
    have := hc.head
    cases chain with
    | nil => exact absurd rfl hc.nonempty
    | cons a l => exact nomatch this
  | cons x items =>
    cases fi with
    | @cons _ c _ certs2 hxc ft =>
      have hh := hc.head
      obtain ⟨m, m1, m2, m3, m4⟩ := key chain hc.members hc.links (fun c hc' => hv c (by simp [hc'])) x (fun d hd => by
        rw [hd] at hh
        injection hh with hh
        subst hh
        exact ⟨by simp, hxc⟩) hc.nonempty
      refine ⟨m, r, (fun e => by rw [e] at m1; exact nomatch m1), m1, m2, hr1, m3, fun z hz => ?_⟩
      rcases List.mem_append.mp hz with hz | hz
      · exact m4 z hz
      · rw [List.mem_singleton] at hz
        subst hz
        exact valid hr2 (hv root (by simp))

/-! ### Completeness -/

/-- Plain names have the same string exactly if they have the same attributes. -/
theorem plain_same {m n : DistinguishedName} (hm : Encodable m ∧ Plain m) (hn : Encodable n ∧ Plain n) {a b : List Byte} (ea : nameString m = .ok a) (eb : nameString n = .ok b) :
    a = b ↔ (attributes m).Perm (attributes n) := by
  constructor
  · intro h
    exact C73_partial m n hm.1 hn.1 hm.2 hn.2 ⟨a, ea, by rw [h]; exact eb⟩
  · intro h
    rw [nameString_eq _ hm.1] at ea
    rw [nameString_eq _ hn.1] at eb
    rw [← Except.ok.inj ea, ← Except.ok.inj eb]
    refine congrArg nameToString (name_ext fun i hi => ?_)
    by_cases h1 : nameGet (nameFold {} m) i = []
    · by_cases h2 : nameGet (nameFold {} n) i = []
      · rw [h1, h2]
      · have := (plain_mem_iff hn.2 i hi _ h2).mpr rfl
        exact (plain_mem_iff hm.2 i hi _ h2).mp (h.mem_iff.mpr this)
    · have := (plain_mem_iff hm.2 i hi _ h1).mpr rfl
      exact ((plain_mem_iff hn.2 i hi _ h1).mp (h.mem_iff.mp this)).symm

/-- The object made from a file; the default is not used for good ones. -/
def certOf (x : Item) : Cert := match parseCertificate x.der .Der with
  | .ok c => c
  | .error _ => {}

theorem certOf_spec {x : Item} (h : x.Good) : parseCertificate x.der .Der = .ok (certOf x) ∧ Carries (certOf x) x.t x.der := by
  obtain ⟨c, e, hc⟩ := item_carries h
  have : certOf x = c := by rw [certOf, e]
  rw [this]
  exact ⟨e, hc⟩

theorem parseAll_map : ∀ (items : List Item), (∀ x ∈ items, x.Good) → parseAll items = .ok (items.map certOf)
  | [], _ => rfl
  | x :: l, hg => by
    have ih := parseAll_map l (fun y hy => hg y (by simp [hy]))
    rw [parseAll] at ih ⊢
    rw [List.mapM_cons, (certOf_spec (hg x (by simp))).1, ok_bind, ih]
    rfl

/-- The signature of `x` is long enough for its hash function: 62, 78 or 94 octets (the library and RFC 8017 need this much for the encoded message). -/
def LongEnough (x : Item) : Prop := ∀ h alg, rsaSignatureAlgorithm h = some alg → x.oid = oidContent alg → digestLength h + 30 ≤ x.sig.length

/-- `y` issued `x` and RFC 8017 accepts the signature. -/
structure IssuedExactly (x y : Item) : Prop where
  name : (attributes x.t.issuer).Perm (attributes y.t.subject)
  dates : unixTime y.t.notBefore ≤ unixTime x.t.notBefore ∧ unixTime x.t.notAfter ≤ unixTime y.t.notAfter
  signature : ∃ h alg, rsaSignatureAlgorithm h = some alg ∧ x.oid = oidContent alg ∧ rsassaPkcs1Verify h y.t.modulus y.t.exponent (tbsDer x.t) x.sig

theorem item_keyOk {y : Item} (hy : y.Good) : ∃ k, (certOf y).pubkey = some k ∧ KeyOk k ∧ value k.n = y.t.modulus ∧ value k.e = y.t.exponent := by
  obtain ⟨k, kp, l1, l2, v1, v2, made⟩ := (certOf_spec hy).2.key
  have gk := hy.ordinary.key
  exact ⟨k, kp, ⟨l1, l2, by rw [v1]; exact gk.2.2.1, by rw [v1]; exact gk.2.2.2, made⟩, v1, v2⟩

theorem item_der {x : Item} (hx : x.Good) : (certOf x).derCert = simpleCert (tbsContent x.t) x.oid x.par x.sig := by
  rw [(certOf_spec hx).2.der]; rfl

/-- With a signature as long as the modulus, verification gives a verdict. -/
theorem verify_total {x y : Item} (hx : x.Good) (hy : y.Good) (hs : x.sig.length = octetLength y.t.modulus) (hlong : LongEnough x) :
    ∃ b, (certOf x).verify (certOf y) = .ok b := by
  obtain ⟨k, kp, hk, v1, v2⟩ := item_keyOk hy
  have hd := item_der hx
  have hl : (certOf x).derCert.length < 2 ^ 24 := by rw [(certOf_spec hx).2.der]; exact hx.size
  by_cases hu : ∃ h alg, rsaSignatureAlgorithm h = some alg ∧ x.oid = oidContent alg
  · obtain ⟨h, alg, ha, ho⟩ := hu
    obtain ⟨b, hb, _⟩ := verify_known (certOf x) (certOf y) k (tbsContent x.t) x.par x.sig h alg (by rw [hd, ho]) kp hk ha hl (by rw [v1]; exact hs) (hlong h alg ha ho)
    exact ⟨b, hb⟩
  · rw [verify_nested_iff]
    split
    · rw [hd, simpleCert, verifySignature_der _ _ _ _ _ _ _ (by rw [hd, simpleCert] at hl; omega), kp]
      dsimp only
      rw [validateSignature_unknown k x.oid _ _ hu]
      exact ⟨_, rfl⟩
    · exact ⟨_, rfl⟩

theorem verify_issued {x y : Item} (hx : x.Good) (hy : y.Good) (h : IssuedExactly x y) (hlong : LongEnough x) : (certOf x).verify (certOf y) = .ok true := by
  obtain ⟨hh, alg, ha, ho, h1, h2, oid, h3, h4⟩ := h.signature
  obtain ⟨k, kp, hk, v1, v2⟩ := item_keyOk hy
  have hl : (certOf x).derCert.length < 2 ^ 24 := by rw [(certOf_spec hx).2.der]; exact hx.size
  obtain ⟨b, hb, hbi⟩ := verify_known (certOf x) (certOf y) k (tbsContent x.t) x.par x.sig hh alg (by rw [item_der hx, ho]) kp hk ha hl (by rw [v1]; exact h1) (hlong hh alg ha ho)
  have : b = true := by
    rw [hbi]
    refine ⟨⟨?_, ?_⟩, oid, h3, by rw [v1, v2, h1]; exact h4⟩
    · have a1 := (certOf_spec hx).2.start
      have a2 := (certOf_spec hy).2.start
      have := h.dates
      rw [BitVec.le_def]; omega
    · have a1 := (certOf_spec hx).2.stop
      have a2 := (certOf_spec hy).2.stop
      have := h.dates
      rw [BitVec.le_def]; omega
  rw [hb, this]

theorem isChain_map {α β : Type} {R : α → α → Prop} {S : β → β → Prop} {f : α → β} : ∀ {l : List α}, (∀ x ∈ l, ∀ y ∈ l, R x y → S (f x) (f y)) → List.IsChain R l → List.IsChain S (l.map f)
  | [], _, _ => by simp
  | [a], _, _ => by simp
  | a :: b :: l, h, hl => by
    rw [List.isChain_cons_cons] at hl
    rw [List.map_cons, List.map_cons, List.isChain_cons_cons]
    exact ⟨h a (by simp) b (by simp) hl.1, isChain_map (fun x hx y hy => h x (by simp [hx]) y (by simp [hy])) hl.2⟩

/-- C108, the converse: a chain of certificates with good signatures leads to `true`, in whatever order the certificates after the first are presented and whatever
other certificates are among them. Conditions: the subjects of the presented certificates are different names, and so are those of the trusted ones; no certificate
of the chain has the name of a trusted one; every presented certificate has a signature as long as the modulus of whoever has its issuer's name, and long enough
for its hash function. -/
theorem C108_complete (roots items chain : List Item) (root : Item) (now : U64) (hr : ∀ x ∈ roots, x.Good) (hi : ∀ x ∈ items, x.Good)
    (hd : items.Pairwise (fun x y => ¬ (attributes x.t.subject).Perm (attributes y.t.subject)))
    (hdr : roots.Pairwise (fun x y => ¬ (attributes x.t.subject).Perm (attributes y.t.subject)))
    (hfresh : ∀ x ∈ chain, ∀ r ∈ roots, ¬ (attributes x.t.subject).Perm (attributes r.t.subject))
    (hlen : ∀ x ∈ items, ∀ y ∈ items ++ roots, (attributes x.t.issuer).Perm (attributes y.t.subject) → x.sig.length = octetLength y.t.modulus ∧ LongEnough x)
    (hne : chain ≠ []) (hhead : chain.head? = items.head?) (hsub : ∀ x ∈ chain, x ∈ items) (hroot : root ∈ roots) (hlinks : List.IsChain IssuedExactly (chain ++ [root]))
    (hnow : ∀ x, items.head? = some x → unixTime x.t.notBefore ≤ now.toNat ∧ (now.toNat : Int) ≤ unixTime x.t.notAfter) :
    ∃ added certs certs', parseAll roots = .ok added ∧ parseAll items = .ok certs ∧ (storeOf added).trust certs now = .ok (true, certs') := by
  have good : ∀ x ∈ items ++ roots, x.Good := fun x hx => (List.mem_append.mp hx).elim (hi x) (hr x)
  have subj : ∀ {x y : Item}, x.Good → y.Good → ((certOf x).subject = (certOf y).subject ↔ (attributes x.t.subject).Perm (attributes y.t.subject)) := fun hx hy =>
    plain_same hx.ordinary.subject hy.ordinary.subject (certOf_spec hx).2.subject (certOf_spec hy).2.subject
  have iss : ∀ {x y : Item}, x.Good → y.Good → ((certOf x).issuer = (certOf y).subject ↔ (attributes x.t.issuer).Perm (attributes y.t.subject)) := fun hx hy =>
    plain_same hx.ordinary.issuer hy.ordinary.subject (certOf_spec hx).2.issuer (certOf_spec hy).2.subject
  have getStore : ∀ name i, (storeOf (roots.map certOf)).get name = some i → ∃ r ∈ roots, i = certOf r ∧ (certOf r).subject = name := by
    intro name i h
    rw [C78_get] at h
    have h1 := List.find?_some h
    obtain ⟨r, hr1, rfl⟩ := List.mem_map.mp (List.mem_reverse.mp (List.mem_of_find?_eq_some h))
    exact ⟨r, hr1, rfl, by simpa using h1⟩
  have rootGet : (storeOf (roots.map certOf)).get (certOf root).subject = some (certOf root) := by
    cases hg : (storeOf (roots.map certOf)).get (certOf root).subject with
    | none =>
      rw [C78_get, List.find?_eq_none] at hg
      exact absurd (hg (certOf root) (List.mem_reverse.mpr (List.mem_map_of_mem hroot))) (by simp)
    | some i =>
      obtain ⟨r, hr1, rfl, hr2⟩ := getStore _ _ hg
      have hp := (subj (hr r hr1) (hr root hroot)).mp hr2
      by_cases hrr : r = root
      · rw [hrr]
      · have : Std.Symm (fun x y : Item => ¬ (attributes x.t.subject).Perm (attributes y.t.subject)) := ⟨fun _ _ h1 h2 => h1 h2.symm⟩
        exact absurd hp (hdr.forall hr1 hroot hrr)
  suffices ht : ∃ certs', (storeOf (roots.map certOf)).trust (items.map certOf) now = .ok (true, certs') by
    obtain ⟨certs', ht⟩ := ht
    exact ⟨_, _, certs', parseAll_map roots hr, parseAll_map items hi, ht⟩
  refine C77_partial (roots.map certOf) (items.map certOf) (chain.map certOf) (certOf root) now ?_ ⟨?_, ?_, ?_, ?_, rootGet⟩ ?_ ?_ ?_
  · rw [List.map_map, List.Nodup, List.pairwise_map]
    exact hd.imp_of_mem (fun hx hy h e => h ((subj (hi _ hx) (hi _ hy)).mp e))
  · rw [List.head?_map, List.head?_map, hhead]
  · simpa using hne
  · intro c hc
    obtain ⟨x, hx, rfl⟩ := List.mem_map.mp hc
    exact List.mem_map_of_mem (hsub x hx)
  · rw [show chain.map certOf ++ [certOf root] = (chain ++ [root]).map certOf by simp]
    refine isChain_map (R := fun x y => IssuedExactly x y ∧ x ∈ items ∧ y ∈ items ++ roots) ?_ ?_
    · rintro x _ y _ ⟨h, hx, hy⟩
      exact ⟨(iss (hi x hx) (good y hy)).mpr h.name, verify_issued (hi x hx) (good y hy) h (hlen x hx y hy h.name).2⟩
    · have aux : ∀ l : List Item, (∀ x ∈ l, x ∈ items) → List.IsChain IssuedExactly (l ++ [root]) → List.IsChain (fun x y => IssuedExactly x y ∧ x ∈ items ∧ y ∈ items ++ roots) (l ++ [root]) := by
        intro l
        induction l with
        | nil => intro _ _; simp
        | cons a l ih =>
          intro hm hl
          cases l with
          | nil =>
            simp only [List.cons_append, List.nil_append, List.isChain_cons_cons] at hl ⊢
            exact ⟨⟨hl.1, hm a (by simp), List.mem_append_right _ hroot⟩, by simp⟩
          | cons b l =>
            simp only [List.cons_append, List.isChain_cons_cons] at hl ⊢
            have := ih (fun x hx => hm x (by simp [hx])) (by simpa using hl.2)
            exact ⟨⟨hl.1, hm a (by simp), List.mem_append_left _ (hm b (by simp))⟩, by simpa using this⟩
      exact aux chain hsub hlinks
  · intro c hc
    rw [List.head?_map] at hc
    cases hx : items.head? with
    | none => rw [hx] at hc; exact nomatch hc
    | some x =>
      rw [hx] at hc
      have hc' : certOf x = c := Option.some.inj hc
      subst hc'
      have hn := hnow x hx
      have hg := certOf_spec (hi x (List.mem_of_mem_head? hx))
      have a1 := hg.2.start
      have a2 := hg.2.stop
      rw [ValidAt, BitVec.le_def, BitVec.le_def]
      omega
  · intro c hc
    obtain ⟨x, hx, rfl⟩ := List.mem_map.mp hc
    cases hg : (storeOf (roots.map certOf)).get (certOf x).subject with
    | none => rfl
    | some i =>
      obtain ⟨r, hr1, rfl, hr2⟩ := getStore _ _ hg
      exact absurd ((subj (hi x (hsub x hx)) (hr r hr1)).mp hr2.symm) (hfresh x hx r hr1)
  · intro c hc i hi' hn
    obtain ⟨x, hx, rfl⟩ := List.mem_map.mp hc
    have : ∃ y ∈ items ++ roots, i = certOf y := by
      rcases hi' with ⟨name, hg⟩ | hi'
      · obtain ⟨r, hr1, rfl, _⟩ := getStore _ _ hg
        exact ⟨r, List.mem_append_right _ hr1, rfl⟩
      · obtain ⟨y, hy, rfl⟩ := List.mem_map.mp hi'
        exact ⟨y, List.mem_append_left _ hy, rfl⟩
    obtain ⟨y, hy, rfl⟩ := this
    have hl := hlen x hx y hy ((iss (hi x hx) (good y hy)).mp hn.symm)
    exact verify_total (hi x hx) (good y hy) hl.1 hl.2

/-! The chain of C79 as an example for the hypotheses of both theorems. -/

def leafItem : Item := ⟨leafTbs, oidContent sha256Rsa, tlv 0x05#8 [], i2osp 536870913 62⟩
def midItem : Item := ⟨midTbs, oidContent sha256Rsa, tlv 0x05#8 [], i2osp 536870912 62⟩
def rootItem : Item := ⟨rootTbs, oidContent sha256Rsa, tlv 0x05#8 [], []⟩

theorem chain_good (serial : Nat) (i s : Byte) (m : Nat) (ext : List Extension) (sig : List Byte) (hi : Letter i) (hs : Letter s)
    (hm : m < 2 ^ 4096 ∧ m % 2 = 1 ∧ 1 < m) (hser : serial < 2 ^ 128) (hl : (certDer (chainTbs serial i s m ext) chainAlg sig).length < 2 ^ 24) :
    Item.Good ⟨chainTbs serial i s m ext, oidContent sha256Rsa, tlv 0x05#8 [], sig⟩ where
  ordinary := ⟨Nat.lt_trans hser (by decide), cn_ok i hi, cn_ok s hs, demoStart, demoStop, ⟨hm.1, by change 17 < 2 ^ 4096; decide +kernel, hm.2.1, hm.2.2⟩⟩
  ids := ⟨rfl, rfl⟩
  exponent := Nat.le_refl _
  serial := hser
  size := hl

theorem items_good : (∀ x ∈ [leafItem, midItem], x.Good) ∧ ∀ x ∈ [rootItem], x.Good := by
  obtain ⟨⟨m1, m2, m3⟩, ⟨r1, r2, r3⟩, L1, L2, L3⟩ := chain_numbers
  have pow : 2 ^ 495 < 2 ^ 4096 := by decide +kernel
  constructor
  · intro x hx
    simp only [List.mem_cons, List.not_mem_nil, or_false] at hx
    rcases hx with rfl | rfl
    · exact chain_good 1 0x4d#8 0x4c#8 (2 ^ 127 - 1) [] _ (by simp [Letter]) (by simp [Letter]) (by decide +kernel) (by decide) L1
    · exact chain_good 2 0x52#8 0x4d#8 midModulus [] _ (by simp [Letter]) (by simp [Letter]) ⟨Nat.lt_trans m2 pow, m3, by omega⟩ (by decide) L2
  · intro x hx
    rw [List.mem_singleton] at hx
    subst hx
    exact chain_good 3 0x52#8 0x52#8 rootModulus _ _ (by simp [Letter]) (by simp [Letter]) ⟨Nat.lt_trans r2 pow, r3, by omega⟩ (by decide) L3

/-- The hypotheses of `C108_sound` hold for it. -/
theorem C108_demo : ∃ added certs certs' now, parseAll [rootItem] = .ok added ∧ parseAll [leafItem, midItem] = .ok certs ∧
    (storeOf added).trust certs now = .ok (true, certs') := by
  obtain ⟨leaf, mid, root, certs', pl, pm, pr, _, _, _, _, _, _, _, dm, dl, dr, ht⟩ := chain_demo
  have e1 : certOf leafItem = leaf := by
    rw [dl] at pl
    rw [certOf, show leafItem.der = leafDer from rfl, pl]
  have e2 : certOf midItem = mid := by
    rw [dm] at pm
    rw [certOf, show midItem.der = midDer from rfl, pm]
  have e3 : certOf rootItem = root := by
    rw [dr] at pr
    rw [certOf, show rootItem.der = rootDer from rfl, pr]
  refine ⟨_, _, certs', leaf.validity_start, parseAll_map _ items_good.2, parseAll_map _ items_good.1, ?_⟩
  rw [List.map_cons, List.map_cons, List.map_nil, List.map_cons, List.map_nil, e1, e2, e3]
  exact ht

/-- One link of it. -/
theorem demo_issued (x y : Item) (d : List Byte) (hn : x.t.issuer = y.t.subject) (h1 : y.t.notBefore = x.t.notBefore) (h2 : y.t.notAfter = x.t.notAfter) (ho : x.oid = oidContent sha256Rsa)
    (he : y.t.exponent = 17) (hm : 2 ^ 488 ≤ y.t.modulus ∧ y.t.modulus < 2 ^ 495) (hs : x.sig.length = 62) (hlt : beNat x.sig < 2 ^ 488) (hd : digest .sha2_256 (tbsDer x.t) = d)
    (hl : (tbsDer x.t).length < 2 ^ 24) (h5 : i2osp (beNat x.sig ^ 17 % y.t.modulus) 62 = emOf d) : IssuedExactly x y where
  name := by rw [hn]
  dates := by rw [h1, h2]; omega
  signature := by
    have h62 : octetLength y.t.modulus = 62 := octetLength_eq (k := 61) hm.1 (by omega)
    refine ⟨.sha2_256, sha256Rsa, rfl, ho, by rw [hs, h62], by omega, sha256Id, rfl, ?_⟩
    rw [h62, he, h5]
    have hT : (digestInfo sha256Id d).length = 51 := by
      rw [← hd]
      exact digestInfo_length (h := .sha2_256) (alg := sha256Rsa) rfl rfl _ (by omega)
    rw [emsaPkcs1, hd, hT, if_neg (by decide)]
    rfl

/-- All hypotheses of `C108_complete` hold for it: the result is the same, by the other way. -/
theorem C108_demo_complete : ∃ added certs certs', parseAll [rootItem] = .ok added ∧ parseAll [leafItem, midItem] = .ok certs ∧
    (storeOf added).trust certs 1800000000#64 = .ok (true, certs') := by
  obtain ⟨⟨m1, m2, m3⟩, ⟨r1, r2, r3⟩, L1, L2, L3⟩ := chain_numbers
  have oM : octetLength midModulus = 62 := octetLength_eq (k := 61) m1 (by omega)
  have oR : octetLength rootModulus = 62 := octetLength_eq (k := 61) r1 (by omega)
  have sl : leafItem.sig.length = 62 := i2osp_length _ _
  have sm : midItem.sig.length = 62 := i2osp_length _ _
  have long : ∀ x : Item, x.oid = oidContent sha256Rsa → x.sig.length = 62 → LongEnough x := by
    intro x ho hl h alg ha e
    obtain ⟨d1, d2, d3⟩ := algorithms_distinct
    rcases known_cases ha with ⟨rfl, rfl⟩ | ⟨rfl, rfl⟩ | ⟨rfl, rfl⟩
    · rw [hl]; decide
    · rw [ho] at e; exact absurd e (by decide +kernel)
    · rw [ho] at e; exact absurd e (by decide +kernel)
  refine C108_complete [rootItem] [leafItem, midItem] [leafItem, midItem] rootItem _ items_good.2 items_good.1 ?_ (by simp) ?_ ?_ (by simp) rfl (fun _ h => h) (by simp) ?_ ?_
  · simp only [List.pairwise_cons, List.mem_cons, List.not_mem_nil, or_false, forall_eq, List.Pairwise.nil, and_true, false_implies, implies_true]
    decide +kernel
  · intro x hx r hr'
    rw [List.mem_singleton] at hr'
    subst hr'
    simp only [List.mem_cons, List.not_mem_nil, or_false] at hx
    rcases hx with rfl | rfl <;> decide +kernel
  · intro x hx y hy hp
    simp only [List.mem_cons, List.not_mem_nil, or_false, List.cons_append, List.nil_append] at hx hy
    rcases hx with rfl | rfl
    · refine ⟨?_, long _ rfl sl⟩
      rcases hy with rfl | rfl | rfl
      · exact absurd hp (by decide +kernel)
      · exact sl.trans oM.symm
      · exact absurd hp (by decide +kernel)
    · refine ⟨?_, long _ rfl sm⟩
      rcases hy with rfl | rfl | rfl
      · exact absurd hp (by decide +kernel)
      · exact absurd hp (by decide +kernel)
      · exact sm.trans oR.symm
  · simp only [List.cons_append, List.nil_append, List.isChain_cons_cons, List.isChain_singleton, and_true]
    exact ⟨demo_issued _ _ leafDigest rfl rfl rfl rfl rfl ⟨m1, m2⟩ sl (by decide +kernel) leafDigest_eq (by decide +kernel) chain_signatures.1,
      demo_issued _ _ midDigest rfl rfl rfl rfl rfl ⟨r1, r2⟩ sm (by decide +kernel) midDigest_eq (by decide +kernel) chain_signatures.2⟩
  · intro x hx
    injection hx with hx
    subst hx
    decide +kernel

end Verif.Props
