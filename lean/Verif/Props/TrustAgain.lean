import Verif.Props.Issuer

/-! C109: asking the trust store again. `trust` overwrites certificates of the caller's list, so a second call sees a different list. -/

namespace Verif.Props
open Verif.Model Verif.Proof Verif.Spec

/-- A later list differs from an earlier one at most where a certificate with an unknown name was blanked. -/
def Kept (lmap : List (List Byte × CertPtr)) (certs out : List Cert) : Prop :=
  ∀ (i : Nat) (c : Cert), certs[i]? = some c → out[i]? = some c ∨ (out[i]? = some {} ∧ mapFind lmap c.subject = none)

/-- The loop passes over this certificate. -/
def Passed (lmap : List (List Byte × CertPtr)) (c : Cert) : Prop := mapFind lmap c.subject ≠ none ∨ mapFind lmap c.issuer = none

theorem passed_blank (lmap : List (List Byte × CertPtr)) : Passed lmap {} := by
  by_cases h : mapFind lmap ([] : List Byte) = none
  · exact Or.inr h
  · exact Or.inl h

theorem trustLoop_passed (store : Store) (k : Nat) {lmap : List (List Byte × CertPtr)} {certs : List Cert} {n : Nat} {cert : Cert} (hc : certs[n]? = some cert)
    (h : Passed lmap cert) : trustLoop store (k + 1) lmap certs n = trustLoop store k lmap certs (n + 1) := by
  rw [trustLoop_succ store k lmap certs n hc]
  cases h1 : mapFind lmap cert.subject with
  | some q => rfl
  | none =>
    rcases h with h | h
    · exact absurd h1 h
    · rw [h]

/-- What one pass does with a certificate that is not passed over. -/
theorem trustLoop_candidate (store : Store) (k : Nat) {lmap : List (List Byte × CertPtr)} {certs : List Cert} {n : Nat} {cert : Cert} (hc : certs[n]? = some cert)
    (h : ¬ Passed lmap cert) : ∃ p, mapFind lmap cert.subject = none ∧ mapFind lmap cert.issuer = some p ∧ trustLoop store (k + 1) lmap certs n = (do
      let issuer ← p.deref store certs
      let good ← cert.verify issuer
      if good then
        if n = 0 then return (true, certs)
        else trustLoop store k (mapSet lmap cert.subject (.listed n)) certs 0
      else do
        let certs ← wr certs n {}
        trustLoop store k lmap certs 0) := by
  have h1 : mapFind lmap cert.subject = none := by
    by_contra h1
    exact h (Or.inl h1)
  cases h2 : mapFind lmap cert.issuer with
  | none => exact absurd (Or.inr h2) h
  | some p =>
    refine ⟨p, h1, rfl, ?_⟩
    rw [trustLoop_succ store k lmap certs n hc, h1, h2]

theorem find_set_none {lmap : List (List Byte × CertPtr)} {a b : List Byte} {p : CertPtr} (h : mapFind (mapSet lmap a p) b = none) :
    a ≠ b ∧ mapFind lmap b = none := by
  rw [mapFind_set] at h
  split at h
  · exact nomatch h
  · next hn => exact ⟨hn, h⟩

/-- The list that `trust` leaves behind. -/
theorem trustLoop_kept (store : Store) : ∀ (k : Nat) (lmap : List (List Byte × CertPtr)) (certs : List Cert) (n : Nat) (b : Bool) (out : List Cert),
    trustLoop store k lmap certs n = .ok (b, out) → out.length = certs.length ∧ Kept lmap certs out
  | 0, _, _, _, _, _, h => nomatch h
  | k + 1, lmap, certs, n, b, out, h => by
    by_cases hn : n < certs.length
    · have hc : certs[n]? = some certs[n] := List.getElem?_eq_getElem hn
      generalize certs[n] = cert at hc
      by_cases hp : Passed lmap cert
      · rw [trustLoop_passed store k hc hp] at h
        exact trustLoop_kept store k lmap certs (n + 1) b out h
      · obtain ⟨p, h1, h2, he⟩ := trustLoop_candidate store k hc hp
        rw [he] at h
        obtain ⟨issuer, hd, h⟩ := bind_ok h
        obtain ⟨good, hv, h⟩ := bind_ok h
        cases good with
        | true =>
          rw [if_pos rfl] at h
          split at h
          · injection h with h
            injection h with h3 h4
            subst h4
            exact ⟨rfl, fun i c hi => Or.inl hi⟩
          · obtain ⟨hl, hk⟩ := trustLoop_kept store k _ certs 0 b out h
            exact ⟨hl, fun i c hi => (hk i c hi).imp id (fun ⟨e, hs⟩ => ⟨e, (find_set_none hs).2⟩)⟩
        | false =>
          rw [if_neg (by simp), wr_eq hn, ok_bind] at h
          obtain ⟨hl, hk⟩ := trustLoop_kept store k lmap _ 0 b out h
          refine ⟨by rw [hl, List.length_set], fun i c hi => ?_⟩
          by_cases hin : n = i
          · subst hin
            obtain rfl : cert = c := Option.some.inj (hc.symm.trans hi)
            have := hk n {} (by rw [List.getElem?_set, if_pos rfl, if_pos hn])
            exact Or.inr ⟨this.elim id (fun h => h.1), h1⟩
          · exact hk i c (by rw [List.getElem?_set, if_neg hin, hi])
    · rw [trustLoop_end store k lmap certs n (by omega)] at h
      injection h with h
      injection h with h3 h4
      subst h4
      exact ⟨rfl, fun i c hi => Or.inl hi⟩

/-- The pointers into the list designate certificates of the right name. -/
def Pointed (lmap : List (List Byte × CertPtr)) (certs : List Cert) : Prop :=
  ∀ name i, mapFind lmap name = some (.listed i) → ∃ c, certs[i]? = some c ∧ c.subject = name

theorem deref_kept {store : Store} {lmap : List (List Byte × CertPtr)} {certs out : List Cert} {name : List Byte} {p : CertPtr}
    (hP : Pointed lmap certs) (hK : Kept lmap certs out) (hp : mapFind lmap name = some p) : p.deref store out = p.deref store certs := by
  cases p with
  | stored s => rfl
  | listed i =>
    obtain ⟨c, hc, hs⟩ := hP name i hp
    have ho : out[i]? = some c := by
      rcases hK i c hc with h | ⟨_, h⟩
      · exact h
      · rw [hs, hp] at h; exact nomatch h
    show rd out i = rd certs i
    unfold rd
    rw [hc, ho]

/-- Certificates passed over by the first call are passed over by the second one. -/
theorem rewind (store : Store) {lmap : List (List Byte × CertPtr)} {out : List Cert} {b : Bool} : ∀ (n k : Nat),
    (∀ j < n, ∃ c, out[j]? = some c ∧ Passed lmap c) → ∀ j ≤ n, trustLoop store k lmap out j = .ok (b, out) → ∃ k', trustLoop store k' lmap out n = .ok (b, out)
  | n, 0, _, j, _, h => nomatch h
  | n, k + 1, hp, j, hj, h => by
    by_cases hjn : j = n
    · exact ⟨k + 1, hjn ▸ h⟩
    · obtain ⟨c, hc, hpc⟩ := hp j (by omega)
      rw [trustLoop_passed store k hc hpc] at h
      exact rewind store n k hp (j + 1) (by omega) h

theorem again_loop (store : Store) (b : Bool) (out : List Cert) : ∀ (k : Nat) (lmap : List (List Byte × CertPtr)) (certs : List Cert) (n : Nat), Pointed lmap certs →
    (∀ j < n, ∀ c, certs[j]? = some c → Passed lmap c) → trustLoop store k lmap certs n = .ok (b, out) → ∃ k', trustLoop store k' lmap out n = .ok (b, out)
  | 0, _, _, _, _, _, h => nomatch h
  | k + 1, lmap, certs, n, hP, hpass, h => by
    obtain ⟨hl, hK⟩ := trustLoop_kept store (k + 1) lmap certs n b out h
    have hpass' : ∀ j < n, j < certs.length → ∃ c, out[j]? = some c ∧ Passed lmap c := by
      intro j hj hjl
      rcases hK j _ (List.getElem?_eq_getElem hjl) with hk | ⟨hk, _⟩
      · exact ⟨_, hk, hpass j hj _ (List.getElem?_eq_getElem hjl)⟩
      · exact ⟨_, hk, passed_blank lmap⟩
    by_cases hn : n < certs.length
    · have hc : certs[n]? = some certs[n] := List.getElem?_eq_getElem hn
      generalize certs[n] = cert at hc
      by_cases hp : Passed lmap cert
      · rw [trustLoop_passed store k hc hp] at h
        obtain ⟨k', hk'⟩ := again_loop store b out k lmap certs (n + 1) hP (fun j hj c hjc => by
          by_cases e : j = n
          · subst e
            obtain rfl : cert = c := Option.some.inj (hc.symm.trans hjc)
            exact hp
          · exact hpass j (by omega) c hjc) h
        refine ⟨k' + 1, ?_⟩
        rcases hK n cert hc with ho | ⟨ho, _⟩
        · rw [trustLoop_passed store k' ho hp, hk']
        · rw [trustLoop_passed store k' ho (passed_blank lmap), hk']
      · obtain ⟨p, h1, h2, he⟩ := trustLoop_candidate store k hc hp
        rw [he] at h
        obtain ⟨issuer, hd, h⟩ := bind_ok h
        obtain ⟨good, hv, h⟩ := bind_ok h
        cases good with
        | true =>
          rw [if_pos rfl] at h
          split at h
          · next h0 =>
            injection h with h
            injection h with h3 h4
            subst h3 h4
            refine ⟨k + 1, ?_⟩
            rw [he, hd, ok_bind, hv, ok_bind, if_pos rfl, if_pos h0]
            rfl
          · next h0 =>
            have hP2 : Pointed (mapSet lmap cert.subject (.listed n)) certs := by
              intro name i hi
              rw [mapFind_set] at hi
              split at hi
              · next hs =>
                injection hi with hi
                injection hi with hi
                subst hi
                exact ⟨cert, hc, hs⟩
              · exact hP name i hi
            obtain ⟨hl2, hK2⟩ := trustLoop_kept store k _ certs 0 b out h
            have ho : out[n]? = some cert := by
              rcases hK2 n cert hc with ho | ⟨_, ho⟩
              · exact ho
              · exact absurd rfl (find_set_none ho).1
            obtain ⟨k', hk'⟩ := again_loop store b out k _ certs 0 hP2 (fun j hj => by omega) h
            refine ⟨k' + 1, ?_⟩
            obtain ⟨p', h1', h2', he'⟩ := trustLoop_candidate store k' ho hp
            obtain rfl : p = p' := Option.some.inj (h2.symm.trans h2')
            rw [he', deref_kept hP hK h2, hd, ok_bind, hv, ok_bind, if_pos rfl, if_neg h0, hk']
        | false =>
          rw [if_neg (by simp), wr_eq hn, ok_bind] at h
          have hP2 : Pointed lmap (certs.set n {}) := by
            intro name i hi
            obtain ⟨c, hic, hs⟩ := hP name i hi
            refine ⟨c, ?_, hs⟩
            rw [List.getElem?_set, if_neg, hic]
            rintro rfl
            obtain rfl : cert = c := Option.some.inj (hc.symm.trans hic)
            rw [hs, hi] at h1
            exact nomatch h1
          obtain ⟨k', hk'⟩ := again_loop store b out k lmap _ 0 hP2 (fun j hj => by omega) h
          exact rewind store n k' (fun j hj => hpass' j hj (by omega)) 0 (by omega) hk'
    · rw [trustLoop_end store k lmap certs n (by omega)] at h
      injection h with h
      injection h with h3 h4
      subst h3 h4
      exact ⟨1, trustLoop_end store 0 lmap _ n (by omega)⟩

theorem trustLoop_add (store : Store) (r : Bool × List Cert) : ∀ (k more : Nat) (lmap : List (List Byte × CertPtr)) (certs : List Cert) (n : Nat),
    trustLoop store k lmap certs n = .ok r → trustLoop store (k + more) lmap certs n = .ok r
  | 0, _, _, _, _, h => nomatch h
  | k + 1, more, lmap, certs, n, h => by
    rw [show k + 1 + more = (k + more) + 1 by omega]
    by_cases hn : n < certs.length
    · have hc : certs[n]? = some certs[n] := List.getElem?_eq_getElem hn
      generalize certs[n] = cert at hc
      by_cases hp : Passed lmap cert
      · rw [trustLoop_passed store _ hc hp] at h ⊢
        exact trustLoop_add store r k more lmap certs (n + 1) h
      · obtain ⟨p, h1, h2, he⟩ := trustLoop_candidate store k hc hp
        obtain ⟨p', _, h2', he'⟩ := trustLoop_candidate store (k + more) hc hp
        obtain rfl : p = p' := Option.some.inj (h2.symm.trans h2')
        rw [he] at h
        obtain ⟨issuer, hd, h⟩ := bind_ok h
        obtain ⟨good, hv, h⟩ := bind_ok h
        rw [he', hd, ok_bind, hv, ok_bind]
        cases good with
        | true =>
          rw [if_pos rfl] at h ⊢
          split at h
          · next h0 => rw [if_pos h0]; exact h
          · next h0 => rw [if_neg h0]; exact trustLoop_add store r k more _ certs 0 h
        | false =>
          rw [if_neg (by simp), wr_eq hn, ok_bind] at h ⊢
          exact trustLoop_add store r k more lmap _ 0 h
    · rw [trustLoop_end store _ lmap certs n (by omega)] at h ⊢
      exact h

/-- C109: a second call with the list that the first call left behind gives the same answer, and changes nothing more. -/
theorem C109 (added certs certs' : List Cert) (now : U64) (b : Bool) (h : (storeOf added).trust certs now = .ok (b, certs')) :
    (storeOf added).trust certs' now = .ok (b, certs') := by
  cases certs with
  | nil => exact nomatch h
  | cons leaf rest =>
    rw [trust_eq] at h
    split at h
    · next hv =>
      obtain ⟨hl, hK⟩ := trustLoop_kept _ _ _ _ _ _ _ h
      obtain ⟨k', hk'⟩ := again_loop (storeOf added) b certs' _ _ _ 0 (by
        intro name i hi
        rw [storeMap_find] at hi
        cases hm : mapFind (storeOf added) name with
        | none => rw [hm] at hi; exact nomatch hi
        | some c => rw [hm] at hi; exact nomatch hi) (fun j hj => by omega) h
      have hloop : trustLoop (storeOf added) ((certs'.length + 1) * (certs'.length + 1)) (storeMap (storeOf added)) certs' 0 = .ok (b, certs') := by
        rw [← C76_passes added certs' k', Nat.add_comm]
        exact trustLoop_add _ _ _ _ _ _ _ hk'
      cases certs' with
      | nil => simp at hl
      | cons leaf' rest' =>
        rw [trust_eq]
        split
        · exact hloop
        · next hv' =>
          rcases hK 0 leaf rfl with e | ⟨e, _⟩
          · obtain rfl : leaf' = leaf := Option.some.inj e
            exact absurd hv hv'
          · cases b with
            | false => rfl
            | true =>
              have := (C78_list added (leaf :: rest) (leaf' :: rest') now true (by rw [trust_eq, if_pos hv]; exact h)).2.2 rfl
              obtain rfl : leaf' = leaf := Option.some.inj this
              exact absurd hv hv'
    · injection h with h
      injection h with h1 h2
      subst h1 h2
      rw [trust_eq]
      next hv => rw [if_neg hv]

/-- The hypothesis is met by the chain of three certificates, whose leaf is trusted by both calls. -/
example : ∃ leaf mid root certs', (storeOf [root]).trust [leaf, mid] leaf.validity_start = .ok (true, certs') ∧
    (storeOf [root]).trust certs' leaf.validity_start = .ok (true, certs') := by
  obtain ⟨leaf, mid, root, certs', -, -, -, -, -, -, -, -, -, -, -, -, -, ht⟩ := chain_demo
  exact ⟨leaf, mid, root, certs', ht, C109 _ _ _ _ _ ht⟩

/-- C109: the list left behind does differ: a certificate whose issuer is known but which does not verify is overwritten with an empty one. -/
theorem C109_blanked (added : List Cert) (leaf issuer : Cert) (now : U64) (hv : ValidAt now leaf) (hn : (storeOf added).get leaf.subject = none)
    (hi : (storeOf added).get leaf.issuer = some issuer) (hf : leaf.verify issuer = .ok false) : (storeOf added).trust [leaf] now = .ok (false, [{}]) := by
  have h1 : mapFind (storeMap (storeOf added)) leaf.subject = none := by
    rw [storeMap_find]
    rw [Store.get] at hn
    rw [hn]; rfl
  have h2 : mapFind (storeMap (storeOf added)) leaf.issuer = some (.stored leaf.issuer) := by
    rw [storeMap_find]
    rw [Store.get] at hi
    rw [hi]; rfl
  have hd : (CertPtr.stored leaf.issuer).deref (storeOf added) [leaf] = .ok issuer := by
    rw [Store.get] at hi
    rw [CertPtr.deref, hi]
  rw [trust_eq, if_pos hv, show (([] : List Cert).length + 2) * (([] : List Cert).length + 2) = 1 + 1 + 1 + 1 from rfl, trustLoop_succ _ _ _ [leaf] 0 (cert := leaf) rfl, h1, h2]
  dsimp only
  rw [hd, ok_bind, hf, ok_bind, if_neg (by simp), show wr [leaf] 0 ({} : Cert) = .ok [{}] from rfl, ok_bind, trustLoop_passed _ _ (cert := {}) rfl (passed_blank _),
    trustLoop_end _ _ _ _ _ (by simp)]

/-- The hypotheses are met by a certificate that is valid before its issuer is. -/
example : let leaf : Cert := { subject := [0x4C#8], issuer := [0x52#8], validity_start := 1#64, validity_end := 9#64 }
    let root : Cert := { subject := [0x52#8], validity_start := 2#64, validity_end := 9#64 }
    (storeOf [root]).trust [leaf] 3#64 = .ok (false, [{}]) := by
  intro leaf root
  refine C109_blanked [root] leaf root 3#64 ⟨by decide, by decide⟩ (by rw [C78_get]; decide) (by rw [C78_get]; rfl) ?_
  rw [verify_nested_iff, if_neg]
  rintro ⟨h, -⟩
  revert h
  decide

end Verif.Props
