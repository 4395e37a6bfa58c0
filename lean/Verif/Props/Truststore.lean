import Verif.Proof.Truststore

/-! Properties C75 to C78: the trust store (src/Truststore.cpp). -/

namespace Verif.Props
open Verif.Model Verif.Proof

/-- A store built by adding certificates, in this order, to an empty one. The constructor does this with the certificates of a file. -/
def storeOf (added : List Cert) : Store := added.foldl Store.addCertificate []

/-- `c` is valid at the time `now`. -/
def ValidAt (now : U64) (c : Cert) : Prop := c.validity_start ≤ now ∧ now ≤ c.validity_end

instance (now : U64) (c : Cert) : Decidable (ValidAt now c) := inferInstanceAs (Decidable (_ ∧ _))

/-- A chain from the first certificate of a list: each certificate names the next as its issuer and verifies under it; the last one is in the
store. The link relation is `Proof.Issued`: `c.issuer = i.subject` and `c.verify(i)` returns true. -/
structure ChainTo (store : Store) (certs : List Cert) (chain : List Cert) (root : Cert) : Prop where
  head : chain.head? = certs.head?
  nonempty : chain ≠ []
  members : ∀ c ∈ chain, c ∈ certs
  links : List.IsChain (fun c i => c.issuer = i.subject ∧ c.verify i = .ok true) (chain ++ [root])
  root : store.get root.subject = some root

theorem verify_nested {c i : Cert} (h : c.verify i = .ok true) : i.validity_start ≤ c.validity_start ∧ c.validity_end ≤ i.validity_end := by
  rw [Cert.verify] at h
  split at h
  · exact nomatch h
  · next h1 =>
    split at h
    · exact nomatch h
    · next h2 => exact ⟨BitVec.not_lt.mp h1, BitVec.not_lt.mp h2⟩

theorem chain_valid {now : U64} : ∀ (l : List Cert), List.IsChain Issued l → (∀ c, l.head? = some c → ValidAt now c) → ∀ c ∈ l, ValidAt now c
  | [], _, _, c, h => by simp at h
  | [a], _, h, c, hc => by rw [List.mem_singleton] at hc; subst hc; exact h c rfl
  | a :: b :: l, h, hv, c, hc => by
    rw [List.isChain_cons_cons] at h
    have ha := hv a rfl
    have hn := verify_nested h.1.2
    rcases List.mem_cons.mp hc with rfl | hc
    · exact ha
    · refine chain_valid (b :: l) h.2 (fun c hc => ?_) c hc
      injection hc with hc; subst hc
      exact ⟨BitVec.le_trans hn.1 ha.1, BitVec.le_trans ha.2 hn.2⟩

/-- There is a chain from `c`, possibly just `c` itself, to the store. -/
def Anchored (store : Store) (certs : List Cert) (c : Cert) : Prop := ∃ chain root, (chain ++ [root]).head? = some c ∧ (∀ x ∈ chain, x ∈ certs) ∧
  List.IsChain Issued (chain ++ [root]) ∧ mapFind store root.subject = some root

theorem chain_cons {R : Cert → Cert → Prop} {c : Cert} : ∀ {l : List Cert}, List.IsChain R l → (∀ y, l.head? = some y → R c y) → List.IsChain R (c :: l)
  | [], _, _ => by simp
  | y :: l, h, hy => List.isChain_cons_cons.mpr ⟨hy y rfl, h⟩

theorem anchored_step {store : Store} {certs : List Cert} (c i : Cert) (hc : c ∈ certs) (hi : Anchored store certs i) (hn : i.subject = c.issuer)
    (hv : c.verify i = .ok true) : Anchored store certs c := by
  obtain ⟨chain, root, h1, h2, h3, h4⟩ := hi
  refine ⟨c :: chain, root, rfl, ?_, ?_, h4⟩
  · intro x hx
    rcases List.mem_cons.mp hx with rfl | hx
    · exact hc
    · exact h2 x hx
  · rw [List.cons_append]
    exact chain_cons h3 (fun y hy => by
      rw [h1] at hy
      injection hy with hy
      subst hy
      exact ⟨hn.symm, hv⟩)

theorem loopInv_start {store : Store} (hf : Filed store) (certs : List Cert) : LoopInv store certs (Anchored store certs) (storeMap store) certs := by
  refine ⟨Blanked.refl certs, storeMap_ok hf certs _ fun k c hk => ⟨[], c, rfl, by simp, ?_, ?_⟩⟩
  · simp
  · rw [hf k c hk, hk]

theorem filed_storeOf (added : List Cert) : Filed (storeOf added) := filed_fold added filed_nil

/-- What `trust` does before its loop. -/
theorem trust_eq (store : Store) (leaf : Cert) (rest : List Cert) (now : U64) : store.trust (leaf :: rest) now =
    if ValidAt now leaf then trustLoop store ((rest.length + 2) * (rest.length + 2)) (storeMap store) (leaf :: rest) 0 else .ok (false, leaf :: rest) := by
  have hr : rd (leaf :: rest) 0 = .ok leaf := rfl
  rw [Store.trust, hr, ok_bind]
  by_cases h1 : leaf.validity_start > now
  · rw [if_pos h1, if_neg (fun h => absurd h.1 (BitVec.not_le.mpr h1))]; rfl
  · rw [if_neg h1]
    by_cases h2 : leaf.validity_end < now
    · rw [if_pos h2, if_neg (fun h => absurd h.2 (BitVec.not_le.mpr h2))]; rfl
    · rw [if_neg h2, if_pos ⟨BitVec.not_lt.mp h1, BitVec.not_lt.mp h2⟩]; rfl

theorem start_passes (store : Store) (certs : List Cert) : passes (storeMap store) certs 0 ≤ (certs.length + 1) * (certs.length + 1) := by
  have h : pending (storeMap store) certs ≤ certs.length := List.countP_le_length
  have := Nat.mul_le_mul_right (certs.length + 1) h
  unfold passes
  rw [Nat.succ_mul certs.length (certs.length + 1)]
  omega

/-- C75: `true` is returned only for a certificate with a chain to the store, all of whose certificates are valid now. -/
theorem C75 (added certs certs' : List Cert) (now : U64) (h : (storeOf added).trust certs now = .ok (true, certs')) :
    ∃ chain root, ChainTo (storeOf added) certs chain root ∧ ∀ c ∈ chain ++ [root], ValidAt now c := by
  cases certs with
  | nil => exact nomatch h
  | cons leaf rest =>
    rw [trust_eq] at h
    split at h
    · next hv =>
      obtain ⟨_, h2⟩ := trustLoop_sound anchored_step _ _ _ _ (loopInv_start (filed_storeOf added) (leaf :: rest)) true certs' h
      obtain ⟨_, l, hl, i, ⟨chain, root, h3, h4, h5, h6⟩, hn, hver⟩ := h2 rfl
      injection hl with hl
      subst hl
      have hlinks : List.IsChain Issued (leaf :: chain ++ [root]) := by
        rw [List.cons_append]
        exact chain_cons h5 (fun y hy => by
          rw [h3] at hy
          injection hy with hy
          subst hy
          exact ⟨hn.symm, hver⟩)
      refine ⟨leaf :: chain, root, ⟨rfl, by simp, ?_, hlinks, h6⟩, chain_valid _ hlinks (fun c hc => ?_)⟩
      · intro x hx
        rcases List.mem_cons.mp hx with rfl | hx
        · simp
        · exact h4 x hx
      · injection hc with hc; subst hc; exact hv
    · exact nomatch h

/-- C76, full claim: `trust` terminates, whatever the store and the list. -/
def C76_claim : Prop := ∀ (added certs : List Cert) (now : U64), (storeOf added).trust certs now ≠ .error .diverges

/-- C76 up to the termination of the verification: a fault of `trust`, in particular not terminating, is the fault of a call of `verify` with
matching names or the access to the first element of an empty list. -/
theorem C76_partial (added certs : List Cert) (now : U64) (f : Fault) (h : (storeOf added).trust certs now = .error f) :
    certs = [] ∧ f = .ub ∨ ∃ c ∈ certs, ∃ i, ((∃ name, (storeOf added).get name = some i) ∨ i ∈ certs) ∧ i.subject = c.issuer ∧ c.verify i = .error f := by
  cases certs with
  | nil => left; rw [Store.trust] at h; exact ⟨rfl, by injection h with h; exact h.symm⟩
  | cons leaf rest =>
    right
    rw [trust_eq] at h
    split at h
    · exact trustLoop_error anchored_step _ _ _ _ (loopInv_start (filed_storeOf added) (leaf :: rest)) (start_passes _ _) f h
    · exact nomatch h

/-- C76: hence `trust` terminates if all verifications do. -/
theorem C76_terminates_partial (added certs : List Cert) (now : U64) (h : ∀ c i : Cert, c ∈ certs → c.verify i ≠ .error .diverges) :
    (storeOf added).trust certs now ≠ .error .diverges := by
  intro hd
  rcases C76_partial added certs now .diverges hd with ⟨_, h1⟩ | ⟨c, hc, i, _, _, hv⟩
  · exact nomatch h1
  · exact h c i hc hv

/-- A case that meets the hypotheses of `C76_terminates_partial`. -/
example := fun (c c' : Cert) (now : U64) => C76_terminates_partial [c'] [{ c with derCert := [] }] now (fun d i h => by
  rw [List.mem_singleton.mp h, Cert.verify]
  split
  · nofun
  · split
    · nofun
    · exact fun e => nomatch (show (Except.error Fault.ub : Out Bool) = .error .diverges from e))

/-- C76: the bound on the number of passes in the model is no restriction; a loop allowed more passes gives the same result. -/
theorem C76_passes (added certs : List Cert) (more : Nat) :
    trustLoop (storeOf added) ((certs.length + 1) * (certs.length + 1) + more) (storeMap (storeOf added)) certs 0 =
    trustLoop (storeOf added) ((certs.length + 1) * (certs.length + 1)) (storeMap (storeOf added)) certs 0 := by
  induction more with
  | zero => rfl
  | succ m ih =>
    rw [← ih]
    exact trustLoop_more anchored_step _ _ _ _ (loopInv_start (filed_storeOf added) certs) (Nat.le_trans (start_passes (storeOf added) certs) (Nat.le_add_right _ _))

/-- C77, full claim. -/
def C77_claim : Prop := ∀ (added certs chain : List Cert) (root : Cert) (now : U64), (certs.tail.map Cert.subject).Nodup →
  ChainTo (storeOf added) certs chain root → (∀ c, certs.head? = some c → ValidAt now c) → ∃ certs', (storeOf added).trust certs now = .ok (true, certs')

/-- C77 if no name of the chain is in the store already, the name of the leaf is not used by another certificate of the list, and no verification
with matching names faults. -/
theorem C77_partial (added certs chain : List Cert) (root : Cert) (now : U64) (hd : (certs.map Cert.subject).Nodup)
    (hc : ChainTo (storeOf added) certs chain root) (hv : ∀ c, certs.head? = some c → ValidAt now c) (hfresh : ∀ c ∈ chain, (storeOf added).get c.subject = none)
    (htotal : ∀ c ∈ certs, ∀ i, ((∃ name, (storeOf added).get name = some i) ∨ i ∈ certs) → i.subject = c.issuer → ∃ b, c.verify i = .ok b) :
    ∃ certs', (storeOf added).trust certs now = .ok (true, certs') := by
  cases certs with
  | nil => exact absurd (List.head?_eq_none_iff.mp hc.head) hc.nonempty
  | cons leaf rest =>
    have hhead : chain.head? = some leaf := hc.head
    have hleaf : leaf ∈ chain := List.mem_of_mem_head? hhead
    rw [trust_eq, if_pos (hv leaf rfl)]
    refine trustLoop_complete (chain := chain) (root := root) ⟨filed_storeOf added, hd, hc.members, hc.head, hc.links, hc.root, hfresh, htotal⟩ hhead _ _ _ _ ?_ (start_passes _ _)
    refine ⟨⟨Blanked.refl _, storeMap_ok (filed_storeOf added) _ _ (fun _ _ _ => trivial)⟩, by omega, ?_, ?_, fun _ _ _ h => h⟩
    · intro k hk
      rw [storeMap_find]
      cases h : mapFind (storeOf added) k with
      | none => exact absurd h hk
      | some c => rfl
    · intro c h0
      injection h0 with h0
      subst h0
      have : mapFind (storeOf added) leaf.subject = none := hfresh leaf hleaf
      rw [storeMap_find, this]; rfl

/-- C77: under these conditions the order of the certificates after the leaf does not matter. -/
theorem C77_order_partial (added rest rest' chain : List Cert) (leaf root : Cert) (now : U64) (hp : rest'.Perm rest)
    (hd : ((leaf :: rest).map Cert.subject).Nodup) (hc : ChainTo (storeOf added) (leaf :: rest) chain root) (hv : ValidAt now leaf)
    (hfresh : ∀ c ∈ chain, (storeOf added).get c.subject = none)
    (htotal : ∀ c ∈ leaf :: rest, ∀ i, ((∃ name, (storeOf added).get name = some i) ∨ i ∈ leaf :: rest) → i.subject = c.issuer → ∃ b, c.verify i = .ok b) :
    ∃ certs', (storeOf added).trust (leaf :: rest') now = .ok (true, certs') := by
  have hp' : (leaf :: rest').Perm (leaf :: rest) := hp.cons leaf
  refine C77_partial added (leaf :: rest') chain root now ((hp'.map _).nodup_iff.mpr hd)
    ⟨hc.head, hc.nonempty, fun c h => hp'.mem_iff.mpr (hc.members c h), hc.links, hc.root⟩ (fun c h => ?_) hfresh
    (fun c h i hi hn => htotal c (hp'.mem_iff.mp h) i (hi.imp_right hp'.mem_iff.mp) hn)
  injection h with h; subst h; exact hv

/-- C78: `get` gives the certificate added last under that subject. -/
theorem C78_get (added : List Cert) (name : List Byte) :
    (storeOf added).get name = added.reverse.find? (fun c => decide (c.subject = name)) := by
  rw [storeOf, get_fold]
  cases added.reverse.find? (fun c => decide (c.subject = name)) <;> rfl

/-- C78: a certificate just added is found, and other names are not affected. -/
theorem C78_add (store : Store) (c : Cert) (name : List Byte) :
    (store.addCertificate c).get name = if c.subject = name then some c else store.get name := by
  rw [Store.get, Store.addCertificate, mapFind_set]; rfl

/-- C78: `trust` changes the list only by blanking certificates, and never the leaf if it returns true. -/
theorem C78_list (added certs certs' : List Cert) (now : U64) (b : Bool) (h : (storeOf added).trust certs now = .ok (b, certs')) :
    certs'.length = certs.length ∧ (∀ i : Nat, i < certs.length → certs'[i]? = certs[i]? ∨ certs'[i]? = some {}) ∧ (b = true → certs'.head? = certs.head?) := by
  cases certs with
  | nil => exact nomatch h
  | cons leaf rest =>
    rw [trust_eq] at h
    split at h
    · obtain ⟨h1, h2⟩ := trustLoop_sound anchored_step _ _ _ _ (loopInv_start (filed_storeOf added) (leaf :: rest)) b certs' h
      refine ⟨h1.1, h1.2, fun hb => ?_⟩
      rw [List.head?_eq_getElem?, (h2 hb).1]; rfl
    · injection h with h
      injection h with h1 h2
      subst h1 h2
      exact ⟨rfl, fun i _ => Or.inl rfl, fun h => nomatch h⟩

end Verif.Props
