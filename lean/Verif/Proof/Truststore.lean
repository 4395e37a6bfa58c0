import Verif.Model.Truststore
import Verif.Proof.Simd
import Mathlib.Data.List.Basic
import Mathlib.Data.List.Nodup
import Mathlib.Tactic.Ring
import Mathlib.Tactic.Linarith

/-! Lemmas about src/Truststore.cpp. -/

namespace Verif.Proof
open Verif.Model

section
variable {α : Type}

theorem mapFind_nil (k : List Byte) : mapFind ([] : List (List Byte × α)) k = none := rfl

theorem mapFind_cons (p : List Byte × α) (m : List (List Byte × α)) (k : List Byte) :
    mapFind (p :: m) k = if p.1 = k then some p.2 else mapFind m k := by
  unfold mapFind
  rw [List.find?_cons]
  by_cases h : p.1 = k <;> simp [h]

theorem mapFind_filter (m : List (List Byte × α)) (k k' : List Byte) (h : k' ≠ k) :
    mapFind (m.filter (fun p => decide (p.1 ≠ k))) k' = mapFind m k' := by
  induction m with
  | nil => rfl
  | cons p m ih =>
    rw [List.filter_cons]
    by_cases hp : p.1 = k
    · rw [if_neg (by simp [hp]), ih, mapFind_cons, if_neg (by rw [hp]; exact fun e => h e.symm)]
    · rw [if_pos (by simp [hp]), mapFind_cons, mapFind_cons, ih]

theorem mapFind_set (m : List (List Byte × α)) (k k' : List Byte) (x : α) :
    mapFind (mapSet m k x) k' = if k = k' then some x else mapFind m k' := by
  rw [mapSet, mapFind_cons]
  by_cases h : k = k'
  · rw [if_pos h, if_pos h]
  · rw [if_neg h, if_neg h, mapFind_filter m k k' (fun e => h e.symm)]

theorem mapFind_map {β : Type} (m : List (List Byte × α)) (f : List Byte × α → β) (k : List Byte) :
    mapFind (m.map (fun p => (p.1, f p))) k = (m.find? (fun p => decide (p.1 = k))).map f := by
  induction m with
  | nil => rfl
  | cons p m ih =>
    rw [List.map_cons, mapFind_cons, List.find?_cons]
    by_cases h : p.1 = k
    · simp [h]
    · simp only [h, if_false, decide_false]; exact ih

end

theorem storeMap_find (s : Store) (k : List Byte) : mapFind (storeMap s) k = (mapFind s k).map (fun _ => CertPtr.stored k) := by
  rw [storeMap, mapFind_map s (fun p => CertPtr.stored p.1) k, mapFind]
  cases h : s.find? (fun p => decide (p.1 = k)) with
  | none => rfl
  | some p =>
    have : p.1 = k := by simpa using List.find?_some h
    simp [this]

/-- Every entry is filed under the subject of its certificate. -/
def Filed (s : Store) : Prop := ∀ k c, mapFind s k = some c → c.subject = k

theorem filed_nil : Filed [] := fun _ _ h => nomatch h

theorem filed_add {s : Store} (h : Filed s) (c : Cert) : Filed (s.addCertificate c) := by
  intro k d hd
  rw [Store.addCertificate, mapFind_set] at hd
  split at hd
  · next e => injection hd with hd; rw [← hd, e]
  · exact h k d hd

theorem filed_fold : ∀ (l : List Cert) {s : Store}, Filed s → Filed (l.foldl Store.addCertificate s)
  | [], _, h => h
  | c :: l, _, h => filed_fold l (filed_add h c)

theorem get_fold (l : List Cert) (name : List Byte) : ∀ s : Store, (l.foldl Store.addCertificate s).get name =
    ((l.reverse.find? (fun c => decide (c.subject = name))).or (s.get name)) := by
  induction l with
  | nil => intro s; rfl
  | cons c l ih =>
    intro s
    rw [List.foldl_cons, ih, List.reverse_cons, List.find?_append]
    cases l.reverse.find? (fun c => decide (c.subject = name)) with
    | some d => rfl
    | none =>
      rw [Option.or, Store.get, Store.addCertificate, mapFind_set]
      by_cases h : c.subject = name <;> simp [h, Store.get]

/-! ### The loop of trust -/

/-- State of the list: every certificate is untouched or blank. -/
def Blanked (orig certs : List Cert) : Prop := certs.length = orig.length ∧ ∀ i : Nat, i < orig.length → certs[i]? = orig[i]? ∨ certs[i]? = some {}

theorem Blanked.refl (l : List Cert) : Blanked l l := ⟨rfl, fun _ _ => Or.inl rfl⟩

theorem wr_eq {certs : List Cert} {n : Nat} (h : n < certs.length) (x : Cert) : wr certs n x = .ok (certs.set n x) := by
  unfold wr; rw [if_pos h]

theorem rd_eq {certs : List Cert} {n : Nat} (h : n < certs.length) : rd certs n = .ok certs[n] := by
  unfold rd; simp [h]

theorem Blanked.set {orig certs : List Cert} (h : Blanked orig certs) (n : Nat) : Blanked orig (certs.set n {}) := by
  refine ⟨by simp [h.1], fun i hi => ?_⟩
  rw [List.getElem?_set]
  split
  · next e => subst e; right; rw [if_pos (by rw [h.1]; exact hi)]
  · exact h.2 i hi

/-- The map: pointers lead to certificates filed under their subjects, unblanked if they are in the list, and satisfying `P`. -/
def MapOk (store : Store) (orig certs : List Cert) (P : Cert → Prop) (lmap : List (List Byte × CertPtr)) : Prop :=
  ∀ k p, mapFind lmap k = some p → ∃ c, p.deref store certs = .ok c ∧ c.subject = k ∧ P c ∧
    (p = .stored k ∧ mapFind store k = some c ∨ ∃ i, p = .listed i ∧ certs[i]? = some c ∧ orig[i]? = some c ∧ i ≠ 0)

theorem storeMap_ok {store : Store} (hf : Filed store) (orig : List Cert) (P : Cert → Prop) (hP : ∀ k c, mapFind store k = some c → P c) :
    MapOk store orig orig P (storeMap store) := by
  intro k p h
  rw [storeMap_find] at h
  cases hk : mapFind store k with
  | none => rw [hk] at h; exact nomatch h
  | some c =>
    rw [hk] at h
    injection h with h
    subst h
    exact ⟨c, by rw [CertPtr.deref, hk], hf k c hk, hP k c hk, Or.inl ⟨rfl, rfl⟩⟩

theorem candidate_orig {store : Store} {orig certs : List Cert} {lmap : List (List Byte × CertPtr)} (hb : Blanked orig certs) {n : Nat} {cert : Cert}
    (hc : certs[n]? = some cert) (h1 : mapFind lmap cert.subject = none) {p : CertPtr} (h2 : mapFind lmap cert.issuer = some p) : orig[n]? = some cert := by
  have hn : n < orig.length := by rw [← hb.1]; exact (List.getElem?_eq_some_iff.mp hc).1
  rcases hb.2 n hn with h | h
  · rw [← h, hc]
  · rw [hc] at h
    injection h with h
    subst h
    rw [h1] at h2
    exact nomatch h2

theorem mapOk_set {store : Store} {orig certs : List Cert} {P : Cert → Prop} {lmap : List (List Byte × CertPtr)} (h : MapOk store orig certs P lmap)
    {n : Nat} {cert : Cert} (hn : n ≠ 0) (hc : certs[n]? = some cert) (ho : orig[n]? = some cert) (hP : P cert) :
    MapOk store orig certs P (mapSet lmap cert.subject (.listed n)) := by
  intro k p hp
  rw [mapFind_set] at hp
  split at hp
  · next e =>
    injection hp with hp
    subst hp
    refine ⟨cert, ?_, e, hP, Or.inr ⟨n, rfl, hc, ho, hn⟩⟩
    rw [CertPtr.deref]; unfold rd; rw [hc]
  · exact h k p hp

theorem mapOk_blank {store : Store} {orig certs : List Cert} {P : Cert → Prop} {lmap : List (List Byte × CertPtr)} (h : MapOk store orig certs P lmap)
    {n : Nat} {cert : Cert} (hc : certs[n]? = some cert) (hs : mapFind lmap cert.subject = none) :
    MapOk store orig (certs.set n {}) P lmap := by
  intro k p hp
  obtain ⟨c, h1, h2, h3, h4⟩ := h k p hp
  rcases h4 with ⟨rfl, h4⟩ | ⟨i, rfl, h5, h6, h7⟩
  · exact ⟨c, by rw [CertPtr.deref, h4], h2, h3, Or.inl ⟨rfl, h4⟩⟩
  · have hne : n ≠ i := by
      rintro rfl
      rw [hc] at h5
      injection h5 with h5
      rw [h5, h2, hp] at hs
      exact nomatch hs
    have h8 : (certs.set n {})[i]? = some c := by rw [List.getElem?_set, if_neg hne, h5]
    exact ⟨c, by rw [CertPtr.deref]; unfold rd; rw [h8], h2, h3, Or.inr ⟨i, rfl, h8, h6, h7⟩⟩

/-- One certificate that the loop looks at. -/
theorem trustLoop_succ (store : Store) (k : Nat) (lmap : List (List Byte × CertPtr)) (certs : List Cert) (n : Nat) {cert : Cert} (hc : certs[n]? = some cert) :
    trustLoop store (k + 1) lmap certs n = (match mapFind lmap cert.subject, mapFind lmap cert.issuer with
      | some _, _ => trustLoop store k lmap certs (n + 1)
      | none, none => trustLoop store k lmap certs (n + 1)
      | none, some p => do
        let issuer ← p.deref store certs
        let good ← cert.verify issuer
        if good then
          if n = 0 then return (true, certs)
          else trustLoop store k (mapSet lmap cert.subject (.listed n)) certs 0
        else do
          let certs ← wr certs n {}
          trustLoop store k lmap certs 0) := by
  have hn : n < certs.length := (List.getElem?_eq_some_iff.mp hc).1
  have hr : rd certs n = .ok cert := by unfold rd; rw [hc]
  rw [trustLoop, if_pos hn, hr]
  rfl

theorem trustLoop_end (store : Store) (k : Nat) (lmap : List (List Byte × CertPtr)) (certs : List Cert) (n : Nat) (hn : certs.length ≤ n) :
    trustLoop store (k + 1) lmap certs n = .ok (false, certs) := by
  rw [trustLoop, if_neg (by omega)]; rfl

/-- The state of the loop. -/
structure LoopInv (store : Store) (orig : List Cert) (P : Cert → Prop) (lmap : List (List Byte × CertPtr)) (certs : List Cert) : Prop where
  blanked : Blanked orig certs
  map : MapOk store orig certs P lmap

/-- The four things that can happen to a certificate. -/
inductive StepCase (store : Store) (orig : List Cert) (P : Cert → Prop) (k : Nat) (lmap : List (List Byte × CertPtr)) (certs : List Cert) (n : Nat) :
    Out (Bool × List Cert) → Prop
  | skip (cert : Cert) (hc : certs[n]? = some cert) (h : mapFind lmap cert.subject ≠ none ∨ mapFind lmap cert.issuer = none) :
      StepCase store orig P k lmap certs n (trustLoop store k lmap certs (n + 1))
  | fault (cert issuer : Cert) (f : Fault) (ho : orig[n]? = some cert) (hi : P issuer) (hname : issuer.subject = cert.issuer)
      (hin : (∃ k, mapFind store k = some issuer) ∨ issuer ∈ orig) (h : cert.verify issuer = .error f) :
      StepCase store orig P k lmap certs n (.error f)
  | leaf (cert issuer : Cert) (h0 : n = 0) (hc : certs[n]? = some cert) (ho : orig[n]? = some cert) (hi : P issuer) (hname : issuer.subject = cert.issuer)
      (h : cert.verify issuer = .ok true) : StepCase store orig P k lmap certs n (.ok (true, certs))
  | accept (cert issuer : Cert) (h0 : n ≠ 0) (hc : certs[n]? = some cert) (ho : orig[n]? = some cert) (hs : mapFind lmap cert.subject = none)
      (hi : P issuer) (hii : mapFind lmap cert.issuer ≠ none) (hname : issuer.subject = cert.issuer) (h : cert.verify issuer = .ok true) :
      StepCase store orig P k lmap certs n (trustLoop store k (mapSet lmap cert.subject (.listed n)) certs 0)
  | refuse (cert issuer : Cert) (hc : certs[n]? = some cert) (ho : orig[n]? = some cert) (hs : mapFind lmap cert.subject = none)
      (hi : P issuer) (p : CertPtr) (hp : mapFind lmap cert.issuer = some p) (hd : p.deref store certs = .ok issuer)
      (hname : issuer.subject = cert.issuer) (h : cert.verify issuer = .ok false) :
      StepCase store orig P k lmap certs n (trustLoop store k lmap (certs.set n {}) 0)

theorem step_case {store : Store} {orig : List Cert} {P : Cert → Prop} {lmap : List (List Byte × CertPtr)} {certs : List Cert}
    (inv : LoopInv store orig P lmap certs) (k n : Nat) (hn : n < certs.length) :
    StepCase store orig P k lmap certs n (trustLoop store (k + 1) lmap certs n) := by
  have hc : certs[n]? = some certs[n] := List.getElem?_eq_getElem hn
  generalize hcert : certs[n] = cert at hc
  rw [trustLoop_succ store k lmap certs n hc]
  cases h1 : mapFind lmap cert.subject with
  | some q => exact .skip cert hc (Or.inl (by rw [h1]; simp))
  | none =>
    cases h2 : mapFind lmap cert.issuer with
    | none => exact .skip cert hc (Or.inr h2)
    | some p =>
      have ho := candidate_orig (store := store) inv.blanked hc h1 h2
      obtain ⟨issuer, e, hname, hP, hwhere⟩ := inv.map _ _ h2
      have hin : (∃ k, mapFind store k = some issuer) ∨ issuer ∈ orig := by
        rcases hwhere with ⟨_, h⟩ | ⟨i, _, _, h, h0⟩
        · exact Or.inl ⟨_, h⟩
        · exact Or.inr (List.mem_of_getElem? h)
      dsimp only
      rw [e, ok_bind]
      cases hv : cert.verify issuer with
      | error f => rw [error_bind]; exact .fault cert issuer f ho hP hname hin hv
      | ok good =>
        rw [ok_bind]
        cases good with
        | true =>
          rw [if_pos rfl]
          by_cases h0 : n = 0
          · rw [if_pos h0]; exact .leaf cert issuer h0 hc ho hP hname hv
          · rw [if_neg h0]; exact .accept cert issuer h0 hc ho h1 hP (by rw [h2]; simp) hname hv
        | false =>
          rw [if_neg (by simp), wr_eq hn, ok_bind]
          exact .refuse cert issuer hc ho h1 hP p h2 e hname hv

/-- Soundness of the loop for any property that passes from issuers to certificates of the list. -/
theorem trustLoop_sound {store : Store} {orig : List Cert} {P : Cert → Prop}
    (hP : ∀ c i, c ∈ orig → P i → i.subject = c.issuer → c.verify i = .ok true → P c) : ∀ (k : Nat) (lmap : List (List Byte × CertPtr)) (certs : List Cert) (n : Nat),
    LoopInv store orig P lmap certs → ∀ b out, trustLoop store k lmap certs n = .ok (b, out) →
      Blanked orig out ∧ (b = true → out[0]? = orig[0]? ∧ ∃ leaf, orig[0]? = some leaf ∧ ∃ i, P i ∧ i.subject = leaf.issuer ∧ leaf.verify i = .ok true)
  | 0, _, _, _, _, _, _, h => nomatch h
  | k + 1, lmap, certs, n, inv, b, out, h => by
    by_cases hn : n < certs.length
    · have hs := step_case inv k n hn
      rw [h] at hs
      generalize hx : (Except.ok (b, out) : Out (Bool × List Cert)) = x at hs
      cases hs with
      | skip cert hc _ => exact trustLoop_sound hP k lmap certs (n + 1) inv b out hx.symm
      | fault => exact nomatch hx
      | leaf cert issuer h0 hc ho hi hname hv =>
        injection hx with hx
        injection hx with hb hx
        subst h0 hb hx
        refine ⟨inv.blanked, fun _ => ⟨by rw [hc, ho], cert, ho, issuer, hi, hname, hv⟩⟩
      | accept cert issuer h0 hc ho hs hi hii hname hv =>
        exact trustLoop_sound hP k _ certs 0 ⟨inv.blanked, mapOk_set inv.map h0 hc ho (hP cert issuer (List.mem_of_getElem? ho) hi hname hv)⟩ b out hx.symm
      | refuse cert issuer hc ho hs hi p hp hd hname hv =>
        exact trustLoop_sound hP k lmap _ 0 ⟨inv.blanked.set n, mapOk_blank inv.map hc hs⟩ b out hx.symm
    · rw [trustLoop_end store k lmap certs n (by omega)] at h
      injection h with h
      injection h with h1 h2
      subst h1 h2
      exact ⟨inv.blanked, fun h => nomatch h⟩

/-! ### Termination -/

/-- Certificates that could still be accepted or refused. -/
def pending (lmap : List (List Byte × CertPtr)) (certs : List Cert) : Nat :=
  certs.countP (fun c => decide (mapFind lmap c.subject = none) && decide (c.subject ≠ c.issuer))

theorem countP_lt {α : Type} {p q : α → Bool} : ∀ {l : List α}, (∀ x ∈ l, q x = true → p x = true) → (∃ x ∈ l, p x = true ∧ q x = false) → l.countP q < l.countP p
  | [], _, ⟨_, h, _⟩ => by simp at h
  | x :: l, h, ⟨y, hy, hp, hq⟩ => by
    have hle : l.countP q ≤ l.countP p := List.countP_mono_left (fun z hz => h z (by simp [hz]))
    rw [List.countP_cons, List.countP_cons]
    rcases List.mem_cons.mp hy with rfl | hy
    · rw [hp, hq]; simp; omega
    · have := countP_lt (fun z hz => h z (by simp [hz])) ⟨y, hy, hp, hq⟩
      have hx := h x (by simp)
      cases hqx : q x with
      | true => rw [hx hqx]; simp; omega
      | false => simp only [Bool.false_eq_true, if_false]; omega

theorem pending_set_lt {lmap : List (List Byte × CertPtr)} {certs : List Cert} {n : Nat} {cert : Cert} (hc : certs[n]? = some cert)
    (hs : mapFind lmap cert.subject = none) (hi : mapFind lmap cert.issuer ≠ none) (p : CertPtr) : pending (mapSet lmap cert.subject p) certs < pending lmap certs := by
  apply countP_lt
  · intro x _ h
    simp only [Bool.and_eq_true, decide_eq_true_eq] at h ⊢
    refine ⟨?_, h.2⟩
    have := h.1
    rw [mapFind_set] at this
    split at this
    · exact nomatch this
    · exact this
  · refine ⟨cert, List.mem_of_getElem? hc, ?_, ?_⟩
    · simp only [Bool.and_eq_true, decide_eq_true_eq]
      exact ⟨hs, fun e => hi (e ▸ hs)⟩
    · rw [mapFind_set, if_pos rfl]; simp

theorem pending_blank_lt {lmap : List (List Byte × CertPtr)} {certs : List Cert} {n : Nat} {cert : Cert} (hc : certs[n]? = some cert)
    (hs : mapFind lmap cert.subject = none) (hi : mapFind lmap cert.issuer ≠ none) : pending lmap (certs.set n {}) < pending lmap certs := by
  have hn : n < certs.length := (List.getElem?_eq_some_iff.mp hc).1
  have hcn : certs[n] = cert := (List.getElem?_eq_some_iff.mp hc).2
  have hp : (decide (mapFind lmap cert.subject = none) && decide (cert.subject ≠ cert.issuer)) = true := by
    simp only [Bool.and_eq_true, decide_eq_true_eq]
    exact ⟨hs, fun e => hi (e ▸ hs)⟩
  have hpos : 0 < pending lmap certs := List.countP_pos_iff.mpr ⟨cert, List.mem_of_getElem? hc, hp⟩
  rw [pending, List.countP_set hn]
  rw [hcn, if_pos hp, if_neg (by simp)]
  unfold pending at hpos ⊢
  omega

/-- Number of passes that suffice from a state. -/
def passes (lmap : List (List Byte × CertPtr)) (certs : List Cert) (n : Nat) : Nat := pending lmap certs * (certs.length + 1) + (certs.length - n) + 1

theorem passes_restart {lmap lmap' : List (List Byte × CertPtr)} {certs certs' : List Cert} {n k : Nat} (hl : certs'.length = certs.length)
    (h : pending lmap' certs' < pending lmap certs) (hk : passes lmap certs n ≤ k + 1) : passes lmap' certs' 0 ≤ k := by
  unfold passes at hk ⊢
  rw [hl]
  have := Nat.mul_le_mul_right (certs.length + 1) (Nat.succ_le_of_lt h)
  rw [Nat.succ_mul] at this
  omega

/-- The loop can only go wrong because a verification goes wrong. -/
theorem trustLoop_error {store : Store} {orig : List Cert} {P : Cert → Prop}
    (hP : ∀ c i, c ∈ orig → P i → i.subject = c.issuer → c.verify i = .ok true → P c) : ∀ (k : Nat) (lmap : List (List Byte × CertPtr)) (certs : List Cert) (n : Nat),
    LoopInv store orig P lmap certs → passes lmap certs n ≤ k → ∀ f, trustLoop store k lmap certs n = .error f →
      ∃ c ∈ orig, ∃ i, ((∃ k, mapFind store k = some i) ∨ i ∈ orig) ∧ i.subject = c.issuer ∧ c.verify i = .error f
  | 0, _, _, _, _, hk, _, _ => by unfold passes at hk; omega
  | k + 1, lmap, certs, n, inv, hk, f, h => by
    by_cases hn : n < certs.length
    · have hs := step_case inv k n hn
      rw [h] at hs
      generalize hx : (Except.error f : Out (Bool × List Cert)) = x at hs
      cases hs with
      | skip cert hc _ => exact trustLoop_error hP k lmap certs (n + 1) inv (by unfold passes at hk ⊢; omega) f hx.symm
      | fault cert issuer g ho hi hname hin hv =>
        injection hx with hx
        subst hx
        exact ⟨cert, List.mem_of_getElem? ho, issuer, hin, hname, hv⟩
      | leaf => exact nomatch hx
      | accept cert issuer h0 hc ho hs hi hii hname hv =>
        exact trustLoop_error hP k _ certs 0 ⟨inv.blanked, mapOk_set inv.map h0 hc ho (hP cert issuer (List.mem_of_getElem? ho) hi hname hv)⟩
          (passes_restart rfl (pending_set_lt hc hs hii _) hk) f hx.symm
      | refuse cert issuer hc ho hs hi p hp hd hname hv =>
        exact trustLoop_error hP k lmap _ 0 ⟨inv.blanked.set n, mapOk_blank inv.map hc hs⟩
          (passes_restart (by simp) (pending_blank_lt hc hs (by rw [hp]; simp)) hk) f hx.symm
    · rw [trustLoop_end store k lmap certs n (by omega)] at h
      exact nomatch h

/-- More passes do not change the result. -/
theorem trustLoop_more {store : Store} {orig : List Cert} {P : Cert → Prop}
    (hP : ∀ c i, c ∈ orig → P i → i.subject = c.issuer → c.verify i = .ok true → P c) (k : Nat) : ∀ (lmap : List (List Byte × CertPtr)) (certs : List Cert) (n : Nat),
    LoopInv store orig P lmap certs → passes lmap certs n ≤ k → trustLoop store (k + 1) lmap certs n = trustLoop store k lmap certs n := by
  induction k with
  | zero => intro _ _ _ _ hk; unfold passes at hk; omega
  | succ k ih =>
    intro lmap certs n inv hk
    by_cases hn : n < certs.length
    · have hc : certs[n]? = some certs[n] := List.getElem?_eq_getElem hn
      generalize hcert : certs[n] = cert at hc
      have hskip : passes lmap certs (n + 1) ≤ k := by unfold passes at hk ⊢; omega
      rw [trustLoop_succ store (k + 1) lmap certs n hc, trustLoop_succ store k lmap certs n hc]
      cases h1 : mapFind lmap cert.subject with
      | some q => exact ih lmap certs (n + 1) inv hskip
      | none =>
        cases h2 : mapFind lmap cert.issuer with
        | none => exact ih lmap certs (n + 1) inv hskip
        | some p =>
          have ho := candidate_orig (store := store) inv.blanked hc h1 h2
          obtain ⟨issuer, e, hname, hPi, _⟩ := inv.map _ _ h2
          have hii : mapFind lmap cert.issuer ≠ none := by rw [h2]; simp
          dsimp only
          rw [e, ok_bind, ok_bind]
          cases hv : cert.verify issuer with
          | error f => rfl
          | ok good =>
            rw [ok_bind, ok_bind]
            cases good with
            | true =>
              rw [if_pos rfl, if_pos rfl]
              by_cases h0 : n = 0
              · rw [if_pos h0, if_pos h0]
              · rw [if_neg h0, if_neg h0]
                exact ih _ certs 0 ⟨inv.blanked, mapOk_set inv.map h0 hc ho (hP cert issuer (List.mem_of_getElem? ho) hPi hname hv)⟩
                  (passes_restart rfl (pending_set_lt hc h1 hii _) hk)
            | false =>
              rw [if_neg (by simp), if_neg (by simp), wr_eq hn, ok_bind, ok_bind]
              exact ih lmap _ 0 ⟨inv.blanked.set n, mapOk_blank inv.map hc h1⟩ (passes_restart (by simp) (pending_blank_lt hc h1 hii) hk)
    · rw [trustLoop_end store (k + 1) lmap certs n (by omega), trustLoop_end store k lmap certs n (by omega)]

/-! ### Completeness -/

/-- Names match and the signature verifies. -/
def Issued (c i : Cert) : Prop := c.issuer = i.subject ∧ c.verify i = .ok true

/-- What the completeness proof needs of store, list and chain. -/
structure Setting (store : Store) (orig : List Cert) (chain : List Cert) (root : Cert) : Prop where
  filed : Filed store
  names : (orig.map Cert.subject).Nodup
  sub : ∀ c ∈ chain, c ∈ orig
  head : chain.head? = orig.head?
  links : List.IsChain Issued (chain ++ [root])
  root : mapFind store root.subject = some root
  fresh : ∀ c ∈ chain, mapFind store c.subject = none
  total : ∀ c ∈ orig, ∀ i, ((∃ k, mapFind store k = some i) ∨ i ∈ orig) → i.subject = c.issuer → ∃ b, c.verify i = .ok b

/-- The state of the loop, for completeness. -/
structure ChainInv (store : Store) (orig chain : List Cert) (lmap : List (List Byte × CertPtr)) (certs : List Cert) (n : Nat) : Prop where
  base : LoopInv store orig (fun _ => True) lmap certs
  scanned : ∀ j < n, ∀ c, certs[j]? = some c → mapFind lmap c.subject ≠ none ∨ mapFind lmap c.issuer = none
  stored : ∀ k, mapFind store k ≠ none → mapFind lmap k = some (.stored k)
  leaf : ∀ c, orig[0]? = some c → mapFind lmap c.subject = none
  intact : ∀ i : Nat, ∀ c ∈ chain, orig[i]? = some c → certs[i]? = some c

theorem chain_next {R : Cert → Cert → Prop} {root : Cert} : ∀ (l : List Cert), List.IsChain R (l ++ [root]) → ∀ c ∈ l, ∃ d, (d ∈ l ∨ d = root) ∧ R c d
  | [], _, c, h => by simp at h
  | [a], h, c, hc => by
    rw [List.mem_singleton] at hc; subst hc
    rw [List.singleton_append, List.isChain_cons_cons] at h
    exact ⟨root, Or.inr rfl, h.1⟩
  | a :: b :: l, h, c, hc => by
    rw [List.cons_append, List.cons_append, List.isChain_cons_cons] at h
    rcases List.mem_cons.mp hc with rfl | hc
    · exact ⟨b, Or.inl (by simp), h.1⟩
    · obtain ⟨d, h1, h2⟩ := chain_next (b :: l) h.2 c hc
      exact ⟨d, h1.imp_left (fun h => List.mem_cons_of_mem _ h), h2⟩

/-- If every chain certificate whose issuer is known is known, all are. -/
theorem chain_known {root : Cert} (Q : List Byte → Prop) (hroot : Q root.subject) : ∀ (l : List Cert), List.IsChain Issued (l ++ [root]) →
    (∀ c ∈ l, Q c.issuer → Q c.subject) → ∀ c ∈ l, Q c.subject
  | [], _, _, c, h => by simp at h
  | [a], h, hq, c, hc => by
    rw [List.mem_singleton] at hc; subst hc
    rw [List.singleton_append, List.isChain_cons_cons] at h
    exact hq c (by simp) (h.1.1 ▸ hroot)
  | a :: b :: l, h, hq, c, hc => by
    rw [List.cons_append, List.cons_append, List.isChain_cons_cons] at h
    have ih := chain_known Q hroot (b :: l) h.2 (fun c hc => hq c (List.mem_cons_of_mem _ hc))
    rcases List.mem_cons.mp hc with rfl | hc
    · exact hq c (by simp) (h.1.1 ▸ ih b (by simp))
    · exact ih c hc

theorem subject_inj {orig : List Cert} (h : (orig.map Cert.subject).Nodup) {i j : Nat} {c d : Cert} (hi : orig[i]? = some c) (hj : orig[j]? = some d)
    (e : c.subject = d.subject) : i = j := by
  obtain ⟨hil, hic⟩ := List.getElem?_eq_some_iff.mp hi
  obtain ⟨hjl, hjd⟩ := List.getElem?_eq_some_iff.mp hj
  exact (List.Nodup.getElem_inj_iff h (hi := by simpa using hil) (hj := by simpa using hjl)).mp (by simp [hic, hjd, e])

theorem trustLoop_complete {store : Store} {orig chain : List Cert} {root leaf : Cert} (S : Setting store orig chain root) (hl : chain.head? = some leaf) :
    ∀ (k : Nat) (lmap : List (List Byte × CertPtr)) (certs : List Cert) (n : Nat), ChainInv store orig chain lmap certs n → passes lmap certs n ≤ k →
      ∃ out, trustLoop store k lmap certs n = .ok (true, out)
  | 0, _, _, _, _, hk => by unfold passes at hk; omega
  | k + 1, lmap, certs, n, inv, hk => by
    have hleafc : leaf ∈ chain := List.mem_of_mem_head? hl
    have hleaf0 : orig[0]? = some leaf := by rw [← List.head?_eq_getElem?, ← S.head, hl]
    by_cases hn : n < certs.length
    · have hs := step_case inv.base k n hn
      generalize trustLoop store (k + 1) lmap certs n = x at hs ⊢
      cases hs with
      | skip cert hc hsk =>
        refine trustLoop_complete S hl k lmap certs (n + 1) ⟨inv.base, ?_, inv.stored, inv.leaf, inv.intact⟩ (by unfold passes at hk ⊢; omega)
        intro j hj c hjc
        rcases Nat.lt_succ_iff_lt_or_eq.mp hj with h | h
        · exact inv.scanned j h c hjc
        · subst h; rw [hc] at hjc; injection hjc with hjc; subst hjc; exact hsk
      | fault cert issuer f ho hi hname hin hv =>
        obtain ⟨b, hb⟩ := S.total cert (List.mem_of_getElem? ho) issuer hin hname
        rw [hv] at hb; exact nomatch hb
      | leaf => exact ⟨certs, rfl⟩
      | accept cert issuer h0 hc ho hs hi hii hname hv =>
        refine trustLoop_complete S hl k _ certs 0 ⟨⟨inv.base.blanked, mapOk_set inv.base.map h0 hc ho trivial⟩, by omega, ?_, ?_, inv.intact⟩
          (passes_restart rfl (pending_set_lt hc hs hii _) hk)
        · intro q hq
          rw [mapFind_set, if_neg, inv.stored q hq]
          rintro rfl
          rw [inv.stored _ hq] at hs; exact nomatch hs
        · intro c hc0
          rw [mapFind_set, if_neg, inv.leaf c hc0]
          intro e
          exact h0 (subject_inj S.names ho hc0 e)
      | refuse cert issuer hc ho hs hi p hp hd hname hv =>
        refine trustLoop_complete S hl k lmap _ 0 ⟨⟨inv.base.blanked.set n, mapOk_blank inv.base.map hc hs⟩, by omega, inv.stored, inv.leaf, ?_⟩
          (passes_restart (by simp) (pending_blank_lt hc hs (by rw [hp]; simp)) hk)
        intro i c hcc hoi
        rw [List.getElem?_set, if_neg, inv.intact i c hcc hoi]
        rintro rfl
        -- a chain certificate is never refused
        have hcc' : c = cert := by rw [hoi] at ho; injection ho
        subst hcc'
        obtain ⟨d, hdm, hd1, hd2⟩ := chain_next chain S.links c hcc
        have hdi : issuer = d := by
          obtain ⟨c', e1, e2, _, e3⟩ := inv.base.map _ _ hp
          have : c' = issuer := by rw [hd] at e1; injection e1 with e1; exact e1.symm
          subst this
          rcases hdm with hdm | rfl
          · rcases e3 with ⟨_, e3⟩ | ⟨j, _, _, hoj, _⟩
            · rw [hd1, S.fresh d hdm] at e3; exact nomatch e3
            · obtain ⟨jd, hjd⟩ := List.mem_iff_getElem?.mp (S.sub d hdm)
              have := subject_inj S.names hoj hjd (by rw [e2, hd1])
              subst this
              rw [hoj] at hjd; injection hjd
          · have hst := inv.stored d.subject (by rw [S.root]; simp)
            rw [← hd1, hp] at hst
            injection hst with hst
            subst hst
            rw [hd1, CertPtr.deref, S.root] at hd
            injection hd with hd
            exact hd.symm
        rw [hdi, hd2] at hv
        exact nomatch hv
    · exfalso
      have hall : ∀ c ∈ chain, mapFind lmap c.issuer ≠ none → mapFind lmap c.subject ≠ none := by
        intro c hc hi
        obtain ⟨i, hoi⟩ := List.mem_iff_getElem?.mp (S.sub c hc)
        have hci := inv.intact i c hc hoi
        rcases inv.scanned i (by have := (List.getElem?_eq_some_iff.mp hci).1; omega) c hci with h | h
        · exact h
        · exact absurd h hi
      have := chain_known (fun s => mapFind lmap s ≠ none) (by rw [inv.stored _ (by rw [S.root]; simp)]; simp) chain S.links hall leaf hleafc
      exact this (inv.leaf leaf hleaf0)

end Verif.Proof
