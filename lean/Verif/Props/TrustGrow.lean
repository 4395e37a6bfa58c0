import Verif.Props.Issuer

/-! C99: the effect of more trusted certificates. -/

namespace Verif.Props
open Verif.Model Verif.Proof Verif.Spec

/-- C99, the full claim: adding a certificate under a new name to the store does not make a trusted certificate untrusted. -/
def C99_claim : Prop := ∀ (added certs certs' : List Cert) (extra : Cert) (now : U64), (storeOf added).get extra.subject = none →
  (storeOf added).trust certs now = .ok (true, certs') → ∃ certs'', (storeOf (added ++ [extra])).trust certs now = .ok (true, certs'')

theorem known_leaf (store : Store) (leaf : Cert) : ∀ (k : Nat) (lmap : List (List Byte × CertPtr)) (certs : List Cert) (n : Nat), certs[0]? = some leaf →
    mapFind lmap leaf.subject ≠ none → ∀ out, trustLoop store k lmap certs n ≠ .ok (true, out)
  | 0, _, _, _, _, _, _ => fun h => nomatch h
  | k + 1, lmap, certs, n, h0, hk, out => by
    intro h
    by_cases hn : n < certs.length
    · have hc : certs[n]? = some certs[n] := List.getElem?_eq_getElem hn
      generalize certs[n] = cert at hc
      rw [trustLoop_succ store k lmap certs n hc] at h
      cases h1 : mapFind lmap cert.subject with
      | some q => rw [h1] at h; exact known_leaf store leaf k lmap certs (n + 1) h0 hk out h
      | none =>
        rw [h1] at h
        cases h2 : mapFind lmap cert.issuer with
        | none => rw [h2] at h; exact known_leaf store leaf k lmap certs (n + 1) h0 hk out h
        | some p =>
          rw [h2] at h
          dsimp only at h
          have hn0 : n ≠ 0 := by
            rintro rfl
            obtain rfl : cert = leaf := Option.some.inj (hc.symm.trans h0)
            exact hk h1
          cases hd : p.deref store certs with
          | error f => rw [hd, error_bind] at h; exact nomatch h
          | ok issuer =>
            rw [hd, ok_bind] at h
            cases hv : cert.verify issuer with
            | error f => rw [hv, error_bind] at h; exact nomatch h
            | ok good =>
              rw [hv, ok_bind] at h
              cases good with
              | true =>
                rw [if_pos rfl, if_neg hn0] at h
                refine known_leaf store leaf k _ certs 0 h0 ?_ out h
                rw [mapFind_set]
                split
                · simp
                · exact hk
              | false =>
                rw [if_neg (by simp), wr_ok _ hn, ok_bind] at h
                refine known_leaf store leaf k lmap _ 0 ?_ hk out h
                rw [List.getElem?_set, if_neg hn0, h0]
    · rw [trustLoop, if_neg hn] at h
      exact nomatch h

/-- C99: a certificate whose subject is in the store is never trusted, whatever else is in the store and the list. -/
theorem C99_stored_partial (added certs certs' : List Cert) (leaf : Cert) (now : U64) (h0 : certs.head? = some leaf)
    (hs : (storeOf added).get leaf.subject ≠ none) : (storeOf added).trust certs now ≠ .ok (true, certs') := by
  cases certs with
  | nil => exact nomatch h0
  | cons l rest =>
    obtain rfl : l = leaf := Option.some.inj h0
    rw [trust_eq]
    split
    · refine known_leaf (storeOf added) l _ _ _ 0 rfl ?_ certs'
      rw [storeMap_find]
      cases h : mapFind (storeOf added) l.subject with
      | none => exact absurd h hs
      | some c => simp
    · intro h
      exact nomatch h

/-- C99, what holds: trust is kept if the names in the list differ from each other, from those in the store and from the new one, and no verification faults.
Missing: lists with a certificate of the new name, see `C99_false`. -/
theorem C99_partial (added certs certs' : List Cert) (extra : Cert) (now : U64) (hd : (certs.map Cert.subject).Nodup)
    (hnew : ∀ c ∈ certs, (storeOf (added ++ [extra])).get c.subject = none) (hx : (storeOf added).get extra.subject = none)
    (htotal : ∀ c ∈ certs, ∀ i, ((∃ name, (storeOf (added ++ [extra])).get name = some i) ∨ i ∈ certs) → i.subject = c.issuer → ∃ b, c.verify i = .ok b)
    (h : (storeOf added).trust certs now = .ok (true, certs')) : ∃ certs'', (storeOf (added ++ [extra])).trust certs now = .ok (true, certs'') := by
  obtain ⟨chain, root, hc, hv⟩ := C75 added certs certs' now h
  have hadd : storeOf (added ++ [extra]) = (storeOf added).addCertificate extra := by rw [storeOf, List.foldl_append]; rfl
  refine C77_partial (added ++ [extra]) certs chain root now hd ⟨hc.head, hc.nonempty, hc.members, hc.links, ?_⟩ (fun c h0 => ?_)
    (fun c hcc => hnew c (hc.members c hcc)) htotal
  · rw [hadd, C78_add, if_neg, hc.root]
    intro he
    rw [he, hc.root] at hx
    exact nomatch hx
  · refine hv c (List.mem_append_left _ ?_)
    rw [← hc.head] at h0
    exact List.mem_of_mem_head? h0

/-- C99 fails: a trusted certificate is no longer trusted after it has itself been added to the store. -/
theorem C99_false : ¬ C99_claim := by
  intro claim
  obtain ⟨leaf, mid, root, certs', -, -, -, sl, -, -, -, sr, -, -, -, -, -, ht⟩ := chain_demo
  have d2 : ascii "CN=R" ≠ ascii "CN=L" := by decide
  obtain ⟨c2, h2⟩ := claim [root] [leaf, mid] certs' leaf leaf.validity_start (by rw [C78_get]; simp [sr, sl, d2]) ht
  exact C99_stored_partial [root, leaf] [leaf, mid] c2 leaf leaf.validity_start rfl (by rw [C78_get]; simp) h2

/-- The hypotheses of `C99_partial` are met by the chain of three certificates and a certificate under a fourth name. -/
example : ∃ leaf mid root extra certs', (storeOf [root]).trust [leaf, mid] leaf.validity_start = .ok (true, certs') ∧
    ([leaf, mid].map Cert.subject).Nodup ∧ (∀ c ∈ [leaf, mid], (storeOf ([root] ++ [extra])).get c.subject = none) ∧ (storeOf [root]).get extra.subject = none ∧
    (∀ c ∈ [leaf, mid], ∀ i, ((∃ name, (storeOf ([root] ++ [extra])).get name = some i) ∨ i ∈ [leaf, mid]) → i.subject = c.issuer → ∃ b, c.verify i = .ok b) := by
  obtain ⟨leaf, mid, root, certs', -, -, -, sl, il, sm, im, sr, v1, v2, -, -, -, ht⟩ := chain_demo
  have d1 : ascii "CN=L" ≠ ascii "CN=M" := by decide
  have d2 : ascii "CN=L" ≠ ascii "CN=R" := by decide
  have d3 : ascii "CN=M" ≠ ascii "CN=R" := by decide
  have e1 : ascii "CN=L" ≠ [] := by decide
  have e2 : ascii "CN=M" ≠ [] := by decide
  have e3 : ascii "CN=R" ≠ [] := by decide
  have get : ∀ n, (storeOf ([root] ++ [({} : Cert)])).get n = if n = [] then some {} else if n = ascii "CN=R" then some root else none := by
    intro n
    rw [C78_get]
    by_cases h : n = []
    · rw [if_pos h]; simp [h]
    · rw [if_neg h]
      have h' : ¬ ([] : List Byte) = n := fun e => h e.symm
      by_cases h2 : n = ascii "CN=R"
      · rw [if_pos h2]; simp [List.find?_cons, sr, h2, e3.symm]
      · rw [if_neg h2]
        have h2' : ¬ ascii "CN=R" = n := fun e => h2 e.symm
        simp [List.find?_cons, sr, h', h2']
  refine ⟨leaf, mid, root, {}, certs', ht, by simp [sl, sm, d1], ?_, ?_, ?_⟩
  · intro c hc
    simp only [List.mem_cons, List.not_mem_nil, or_false] at hc
    rw [get]
    rcases hc with rfl | rfl
    · rw [sl, if_neg e1, if_neg d2]
    · rw [sm, if_neg e2, if_neg d3]
  · rw [C78_get]
    simp [sr, e3]
  · intro c hc i hi hn
    have hi' : i = {} ∨ i = root ∨ i = leaf ∨ i = mid := by
      rcases hi with ⟨n, hn⟩ | hi
      · rw [get] at hn
        split at hn
        · left; exact (Option.some.inj hn).symm
        · split at hn
          · right; left; exact (Option.some.inj hn).symm
          · exact nomatch hn
      · right; right; simpa using hi
    simp only [List.mem_cons, List.not_mem_nil, or_false] at hc
    rcases hc with rfl | rfl <;> rcases hi' with rfl | rfl | rfl | rfl
    · rw [il] at hn; exact absurd hn.symm e2
    · rw [sr, il] at hn; exact absurd hn.symm d3
    · rw [sl, il] at hn; exact absurd hn d1
    · exact ⟨_, v1⟩
    · rw [im] at hn; exact absurd hn.symm e3
    · exact ⟨_, v2⟩
    · rw [sl, im] at hn; exact absurd hn d2
    · rw [sm, im] at hn; exact absurd hn d3

end Verif.Props
