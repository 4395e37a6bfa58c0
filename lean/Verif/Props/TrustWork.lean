import Verif.Props.TrustAgain

/-! C151: how much work `Truststore::trust` does. -/

namespace Verif.Props
open Verif Verif.Model Verif.Proof

/-- The loop of `trust` (src/Truststore.cpp:54-75) once more, noting for every pass which certificate it looks at and whether it calls `verify`. -/
def trustRun (store : Store) : Nat → List (List Byte × CertPtr) → List Cert → Nat → Out (Bool × List Cert) × List (Nat × Bool)
  | 0, _, _, _ => (.error .diverges, [])
  | k + 1, lmap, certs, n =>
    match certs[n]? with
    | none => (.ok (false, certs), [])
    | some cert =>
      match mapFind lmap cert.subject, mapFind lmap cert.issuer with
      | some _, _ => ((trustRun store k lmap certs (n + 1)).1, (n, false) :: (trustRun store k lmap certs (n + 1)).2)
      | none, none => ((trustRun store k lmap certs (n + 1)).1, (n, false) :: (trustRun store k lmap certs (n + 1)).2)
      | none, some p =>
        match p.deref store certs with
        | .error f => (.error f, [(n, false)])
        | .ok issuer =>
          match cert.verify issuer with
          | .error f => (.error f, [(n, true)])
          | .ok true =>
            if n = 0 then (.ok (true, certs), [(n, true)])
            else ((trustRun store k (mapSet lmap cert.subject (.listed n)) certs 0).1, (n, true) :: (trustRun store k (mapSet lmap cert.subject (.listed n)) certs 0).2)
          | .ok false => ((trustRun store k lmap (certs.set n {}) 0).1, (n, true) :: (trustRun store k lmap (certs.set n {}) 0).2)

/-- The notes change nothing. -/
theorem trustRun_loop (store : Store) : ∀ (k : Nat) (lmap : List (List Byte × CertPtr)) (certs : List Cert) (n : Nat),
    (trustRun store k lmap certs n).1 = trustLoop store k lmap certs n
  | 0, _, _, _ => rfl
  | k + 1, lmap, certs, n => by
    have ih := trustRun_loop store k
    rw [trustRun, trustLoop]
    by_cases hn : n < certs.length
    · rw [if_pos hn, List.getElem?_eq_getElem hn, rd_eq hn, ok_bind]
      dsimp only
      cases h1 : mapFind lmap certs[n].subject with
      | some q => exact ih _ _ _
      | none =>
        cases h2 : mapFind lmap certs[n].issuer with
        | none => exact ih _ _ _
        | some p =>
          dsimp only
          cases h3 : p.deref store certs with
          | error f => rfl
          | ok issuer =>
            rw [ok_bind]
            dsimp only
            cases h4 : certs[n].verify issuer with
            | error f => rfl
            | ok good =>
              rw [ok_bind]
              cases good with
              | true =>
                dsimp only
                rw [if_pos rfl]
                by_cases h0 : n = 0
                · rw [if_pos h0, if_pos h0]; rfl
                · rw [if_neg h0, if_neg h0]; exact ih _ _ _
              | false =>
                dsimp only
                rw [if_neg (by decide), wr_eq hn, ok_bind]
                exact ih _ _ _
    · rw [if_neg hn, List.getElem?_eq_none (by omega)]; rfl

/-- The certificates whose signatures a run checks, in order. -/
def checked (t : List (Nat × Bool)) : List Nat := (t.filter (·.2)).map (·.1)

theorem checked_skip (n : Nat) (t : List (Nat × Bool)) : checked ((n, false) :: t) = checked t := rfl
theorem checked_check (n : Nat) (t : List (Nat × Bool)) : checked ((n, true) :: t) = n :: checked t := rfl

/-- Certificate `i` is not a candidate any more: its name is known, or it has been overwritten. -/
def Settled (lmap : List (List Byte × CertPtr)) (certs : List Cert) (i : Nat) : Prop :=
  ∀ c, certs[i]? = some c → mapFind lmap c.subject ≠ none ∨ c = {}

theorem settled_next {lmap : List (List Byte × CertPtr)} {certs : List Cert} {i : Nat} (h : Settled lmap certs i) (name : List Byte) (p : CertPtr) :
    Settled (mapSet lmap name p) certs i := fun c hc => (h c hc).imp_left fun h1 => by
  rw [mapFind_set]
  split
  · simp
  · exact h1

theorem settled_blank {lmap : List (List Byte × CertPtr)} {certs : List Cert} {i : Nat} (h : Settled lmap certs i) (n : Nat) : Settled lmap (certs.set n {}) i := fun c hc => by
  rw [List.getElem?_set] at hc
  split at hc
  · split at hc
    · injection hc with hc; exact Or.inr hc.symm
    · exact nomatch hc
  · exact h c hc

/-- What happens to one settled certificate, to all, and how long a run is. -/
theorem run_work (store : Store) : ∀ (k : Nat) (lmap : List (List Byte × CertPtr)) (certs : List Cert) (n : Nat),
    (∀ i, Settled lmap certs i → i ∉ checked (trustRun store k lmap certs n).2) ∧ (checked (trustRun store k lmap certs n).2).Nodup ∧
    (∀ i ∈ checked (trustRun store k lmap certs n).2, i < certs.length) ∧
    (trustRun store k lmap certs n).2.length ≤ (certs.length - n) + (checked (trustRun store k lmap certs n).2).length * certs.length
  | 0, _, _, _ => ⟨fun _ _ h => (nomatch h), List.nodup_nil, fun _ h => (nomatch h), Nat.zero_le _⟩
  | k + 1, lmap, certs, n => by
    have ih := run_work store k
    rw [trustRun]
    cases hc : certs[n]? with
    | none => exact ⟨fun _ _ h => (nomatch h), List.nodup_nil, fun _ h => (nomatch h), Nat.zero_le _⟩
    | some cert =>
      have hn : n < certs.length := (List.getElem?_eq_some_iff.mp hc).1
      dsimp only
      have skip : ∀ (x : Out (Bool × List Cert)), (∀ i, Settled lmap certs i → i ∉ checked (x, (n, false) :: (trustRun store k lmap certs (n + 1)).2).2) ∧
          (checked (x, (n, false) :: (trustRun store k lmap certs (n + 1)).2).2).Nodup ∧
          (∀ i ∈ checked (x, (n, false) :: (trustRun store k lmap certs (n + 1)).2).2, i < certs.length) ∧
          (x, (n, false) :: (trustRun store k lmap certs (n + 1)).2).2.length ≤
            (certs.length - n) + (checked (x, (n, false) :: (trustRun store k lmap certs (n + 1)).2).2).length * certs.length := by
        intro x
        obtain ⟨i1, i2, i3, i4⟩ := ih lmap certs (n + 1)
        refine ⟨fun i h => i1 i h, i2, i3, ?_⟩
        rw [checked_skip, List.length_cons]
        omega
      cases h1 : mapFind lmap cert.subject with
      | some q => exact skip _
      | none =>
        cases h2 : mapFind lmap cert.issuer with
        | none => exact skip _
        | some p =>
          dsimp only
          have own : ∀ i, Settled lmap certs i → i ≠ n := by
            rintro i hi rfl
            rcases hi cert hc with h | rfl
            · exact h h1
            · rw [show ({} : Cert).issuer = ({} : Cert).subject from rfl, h1] at h2
              exact nomatch h2
          have one : ∀ (x : Out (Bool × List Cert)), (∀ i, Settled lmap certs i → i ∉ checked (x, [(n, true)]).2) ∧ (checked (x, [(n, true)]).2).Nodup ∧
              (∀ i ∈ checked (x, [(n, true)]).2, i < certs.length) ∧ (x, [(n, true)]).2.length ≤ (certs.length - n) + (checked (x, [(n, true)]).2).length * certs.length := by
            intro x
            refine ⟨fun i hi h => own i hi (List.mem_singleton.mp h), List.nodup_singleton n, fun i h => by rw [List.mem_singleton.mp h]; exact hn, ?_⟩
            show 1 ≤ (certs.length - n) + 1 * certs.length
            omega
          have more : ∀ (x : Out (Bool × List Cert)) (lmap' : List (List Byte × CertPtr)) (certs' : List Cert), certs'.length = certs.length → Settled lmap' certs' n →
              (∀ i, Settled lmap certs i → Settled lmap' certs' i) →
              (∀ i, Settled lmap certs i → i ∉ checked (x, (n, true) :: (trustRun store k lmap' certs' 0).2).2) ∧
              (checked (x, (n, true) :: (trustRun store k lmap' certs' 0).2).2).Nodup ∧
              (∀ i ∈ checked (x, (n, true) :: (trustRun store k lmap' certs' 0).2).2, i < certs.length) ∧
              (x, (n, true) :: (trustRun store k lmap' certs' 0).2).2.length ≤
                (certs.length - n) + (checked (x, (n, true) :: (trustRun store k lmap' certs' 0).2).2).length * certs.length := by
            intro x lmap' certs' hl hs hk
            obtain ⟨i1, i2, i3, i4⟩ := ih lmap' certs' 0
            rw [checked_check, hl] at *
            refine ⟨fun i hi h => ?_, List.nodup_cons.mpr ⟨i1 n hs, i2⟩, fun i h => ?_, ?_⟩
            · rcases List.mem_cons.mp h with h | h
              · exact own i hi h
              · exact i1 i (hk i hi) h
            · rcases List.mem_cons.mp h with h | h
              · rw [h]; exact hn
              · exact i3 i h
            · rw [List.length_cons, List.length_cons, Nat.succ_mul]
              omega
          cases h3 : p.deref store certs with
          | error f =>
            refine ⟨fun _ _ h => (nomatch h), List.nodup_nil, fun _ h => (nomatch h), ?_⟩
            show 1 ≤ (certs.length - n) + 0 * certs.length
            omega
          | ok issuer =>
            dsimp only
            cases h4 : cert.verify issuer with
            | error f => exact one _
            | ok good =>
              cases good with
              | true =>
                dsimp only
                by_cases h0 : n = 0
                · rw [if_pos h0]; exact one _
                · rw [if_neg h0]
                  exact more _ _ _ rfl (fun c h => by rw [hc] at h; injection h with h; subst h; rw [mapFind_set, if_pos rfl]; simp) (fun i hi => settled_next hi _ _)
              | false =>
                dsimp only
                exact more (trustRun store k lmap (certs.set n {}) 0).1 _ _ (List.length_set ..) (fun c h => by rw [List.getElem?_set, if_pos rfl, if_pos hn] at h; injection h with h; exact Or.inr h.symm)
                  (fun i hi => settled_blank hi n)

/-- C151: whatever the store and the list are, `trust` checks the signature of every certificate in the list at most once (so there are at most as many checks as
certificates), and its loop makes at most `N * (N + 1)` passes for `N` certificates, however often it starts again. -/
theorem C151 (store : Store) (certs : List Cert) (now : U64) (leaf : Cert) (hl : certs.head? = some leaf) (h1 : leaf.validity_start ≤ now) (h2 : now ≤ leaf.validity_end)
    (k : Nat) (hk : k = (certs.length + 1) * (certs.length + 1)) :
    (trustRun store k (storeMap store) certs 0).1 = store.trust certs now ∧ (checked (trustRun store k (storeMap store) certs 0).2).Nodup ∧
    (∀ i ∈ checked (trustRun store k (storeMap store) certs 0).2, i < certs.length) ∧ (checked (trustRun store k (storeMap store) certs 0).2).length ≤ certs.length ∧
    (trustRun store k (storeMap store) certs 0).2.length ≤ certs.length * (certs.length + 1) := by
  obtain ⟨-, w2, w3, w4⟩ := run_work store k (storeMap store) certs 0
  have hle : (checked (trustRun store k (storeMap store) certs 0).2).length ≤ certs.length := by
    have hsub : checked (trustRun store k (storeMap store) certs 0).2 ⊆ List.range certs.length := fun i hi => List.mem_range.mpr (w3 i hi)
    have := (List.subperm_of_subset w2 hsub).length_le
    rwa [List.length_range] at this
  refine ⟨?_, w2, w3, hle, Nat.le_trans w4 ?_⟩
  · rw [trustRun_loop, hk]
    cases certs with
    | nil => exact nomatch hl
    | cons c rest =>
      injection hl with hl
      subst hl
      rw [trust_eq, if_pos ⟨h1, h2⟩]
      rfl
  · have := Nat.mul_le_mul_right certs.length hle
    rw [Nat.mul_succ]
    omega

/-- The hypotheses are met by the chain of three certificates. -/
example : ∃ leaf mid root, leaf.validity_start ≤ leaf.validity_start ∧ leaf.validity_start ≤ leaf.validity_end ∧
    (trustRun (storeOf [root]) 9 (storeMap (storeOf [root])) [leaf, mid] 0).2.length ≤ 6 ∧ ∃ certs', (storeOf [root]).trust [leaf, mid] leaf.validity_start = .ok (true, certs') := by
  obtain ⟨leaf, mid, root, certs', -, -, -, -, -, -, -, -, -, -, -, -, -, ht⟩ := chain_demo
  have hv : ValidAt leaf.validity_start leaf := by
    by_contra h
    rw [trust_eq, if_neg h] at ht
    injection ht with ht
    injection ht with ht
    exact absurd ht (by decide)
  exact ⟨leaf, mid, root, hv.1, hv.2, (C151 (storeOf [root]) [leaf, mid] _ leaf rfl hv.1 hv.2 9 rfl).2.2.2.2, certs', ht⟩

end Verif.Props
