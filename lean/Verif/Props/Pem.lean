import Verif.Proof.Pem
import Verif.Props.Cert
import Verif.Props.Truststore

/-! Property C72: `parseCertificatesPem` (src/X509Certificate.cpp:338-356). -/

namespace Verif.Props
open Verif.Model Verif.Proof Verif.Spec

/-- C72, full claim. -/
def C72_claim : Prop := ∀ (intro : List Byte) (blocks : List PemBlock), 0x2d#8 ∉ intro → (∀ b ∈ blocks, b.Valid) → (pemBundle intro blocks).length < 2 ^ 64 →
  parseCertificatesPem (pemBundle intro blocks) = blocks.mapM (fun b => parseCertificate b.der .Der)

/-- C72, what is returned instead: all certificates but the last, and then the first one once more. -/
theorem C72_partial (intro : List Byte) (b : PemBlock) (bs : List PemBlock) (hi : 0x2d#8 ∉ intro) (hb : b.Valid) (hbs : ∀ x ∈ bs, x.Valid)
    (hl : (pemBundle intro (b :: bs)).length < 2 ^ 64) :
    parseCertificatesPem (pemBundle intro (b :: bs)) = (do
      let l ← (b :: bs).dropLast.mapM (fun x => parseCertificate x.der .Der)
      let c ← parseCertificate b.der .Der
      return l ++ [c]) := by
  have e : pemBundle intro (b :: bs) = intro ++ (b.text ++ bs.flatMap PemBlock.text) := by simp [pemBundle]
  rw [e] at hl ⊢
  have hh : beginMark.head? = some 0x2d#8 := rfl
  have hlen := hl
  simp only [List.length_append] at hlen
  have hbl := block_text_length b
  have e1 : findFrom (intro ++ (b.text ++ bs.flatMap PemBlock.text)) beginCertificate 0 = some intro.length := by
    rw [marks_eq.1, findFrom_go _ _ _ (Nat.zero_le _), List.drop_zero, findGo_skip hh _ _ _ hi, PemBlock.text, List.append_assoc, findGo_here, Nat.zero_add]
  have hfuel : bs.length ≤ (intro ++ (b.text ++ bs.flatMap PemBlock.text)).length + 1 := by
    have : ∀ l : List PemBlock, l.length ≤ (l.flatMap PemBlock.text).length := by
      intro l
      induction l with
      | nil => simp
      | cons x l ih =>
        have := block_text_length x
        rw [List.flatMap_cons, List.length_append, List.length_cons]; omega
    have := this bs
    simp only [List.length_append]; omega
  have hloop := bundleLoop_spec bs b intro ((intro ++ (b.text ++ bs.flatMap PemBlock.text)).length + 1) [] hb hbs hl hfuel
  rw [parseCertificatesPem, e1]
  dsimp only [Option.getD_some]
  rw [Nat.mod_eq_of_lt (by omega), marks_eq.1, find_next intro b hb, find_blocks, hloop, parse_block intro b _ hi hb hl]
  cases (b :: bs).dropLast.mapM (fun x => parseCertificate x.der .Der) with
  | error x => rfl
  | ok l => simp [Except.map, bind, Except.bind]

/-- C72 for a file with one certificate. -/
theorem C72_single_partial (intro : List Byte) (b : PemBlock) (hi : 0x2d#8 ∉ intro) (hb : b.Valid) (hl : (pemBundle intro [b]).length < 2 ^ 64) :
    parseCertificatesPem (pemBundle intro [b]) = [b].mapM (fun b => parseCertificate b.der .Der) := by
  rw [C72_partial intro b [] hi hb (by simp) hl, List.mapM_cons]
  cases parseCertificate b.der .Der <;> rfl

theorem mapM_cons_ok {α β : Type} {f : α → Out β} {a : α} {l : List α} {r : List β} (h : (a :: l).mapM f = .ok r) :
    ∃ x t, f a = .ok x ∧ l.mapM f = .ok t ∧ r = x :: t := by
  rw [List.mapM_cons] at h
  cases h1 : f a with
  | error e => rw [h1] at h; exact nomatch h
  | ok x =>
    cases h2 : l.mapM f with
    | error e => rw [h1, ok_bind, h2] at h; exact nomatch h
    | ok t => rw [h1, ok_bind, h2, ok_bind] at h; exact ⟨x, t, rfl, rfl, (Except.ok.inj h).symm⟩

theorem mapM_dropLast {α β : Type} {f : α → Out β} : ∀ {l : List α} {r : List β}, l.mapM f = .ok r → l.dropLast.mapM f = .ok r.dropLast
  | [], r, h => by
    have : r = [] := (Except.ok.inj (h.symm.trans (by rfl : List.mapM f [] = .ok []))) 
    subst this; rfl
  | [a], r, h => by
    obtain ⟨x, t, _, h2, rfl⟩ := mapM_cons_ok h
    have : t = [] := (Except.ok.inj (h2.symm.trans (by rfl : List.mapM f [] = .ok [])))
    subst this; rfl
  | a :: b :: l, r, h => by
    obtain ⟨x, t, h1, h2, rfl⟩ := mapM_cons_ok h
    have ih := mapM_dropLast h2
    obtain ⟨y, u, _, _, rfl⟩ := mapM_cons_ok h2
    rw [List.dropLast_cons_cons, List.mapM_cons, h1, ok_bind, ih, ok_bind, List.dropLast_cons_cons]
    rfl

/-- C72: the trust store made from a bundle lacks the last certificate, unless another one has the same subject. -/
theorem C72_store (intro : List Byte) (blocks : List PemBlock) (certs : List Cert) (last : Cert) (hi : 0x2d#8 ∉ intro) (hb : ∀ b ∈ blocks, b.Valid)
    (hl : (pemBundle intro blocks).length < 2 ^ 64) (hp : blocks.mapM (fun b => parseCertificate b.der .Der) = .ok (certs ++ [last])) (hne : certs ≠ [])
    (hs : ∀ c ∈ certs, c.subject ≠ last.subject) :
    ∃ store, Store.ofFile (pemBundle intro blocks) = .ok store ∧ (∀ c ∈ certs, ∃ d, store.get c.subject = some d) ∧ store.get last.subject = none := by
  cases blocks with
  | nil =>
    have : certs ++ [last] = [] := Except.ok.inj (hp.symm.trans rfl)
    exact absurd this (by simp)
  | cons b bs =>
    have hd := mapM_dropLast hp
    rw [List.dropLast_concat] at hd
    obtain ⟨x, t, h1, _, h3⟩ := mapM_cons_ok hp
    have hx : ∃ u, certs = x :: u := by
      cases certs with
      | nil => exact absurd rfl hne
      | cons y u => injection h3 with h3 _; exact ⟨u, by rw [h3]⟩
    obtain ⟨u, hu⟩ := hx
    refine ⟨storeOf (certs ++ [x]), ?_, ?_, ?_⟩
    · rw [Store.ofFile, C72_partial intro b bs hi (hb b (by simp)) (fun y hy => hb y (by simp [hy])) hl, hd, ok_bind, h1, ok_bind]
      rfl
    · intro c hc
      rw [C78_get]
      cases hf : (certs ++ [x]).reverse.find? (fun d => decide (d.subject = c.subject)) with
      | some d => exact ⟨d, rfl⟩
      | none =>
        rw [List.find?_eq_none] at hf
        exact absurd (hf c (by simp [hc])) (by simp)
    · rw [C78_get, List.find?_eq_none]
      intro c hc
      have hc' : c ∈ certs := by
        rw [List.mem_reverse, List.mem_append, List.mem_singleton] at hc
        rcases hc with hc | rfl
        · exact hc
        · rw [hu]; simp
      simpa using hs c hc'

/-- A block with one line. -/
def plainBlock (der : List Byte) : PemBlock := ⟨der, 0x0a#8 :: base64Text (alphabet '+' '/') false der ++ [0x0a#8], [0x0a#8]⟩

theorem base64Text_nowhite (der : List Byte) : ∀ c ∈ base64Text (alphabet '+' '/') false der, c ∉ whitespace := by
  intro c hc
  rw [base64Text, List.mem_append] at hc
  rcases hc with h1 | h1
  · obtain ⟨s, _, rfl⟩ := List.mem_map.mp h1
    by_cases hl : s < (alphabet '+' '/').length
    · rw [List.getD_eq_getElem _ _ hl]
      have : ∀ x ∈ alphabet '+' '/', x ∉ whitespace := by decide +kernel
      exact this _ (List.getElem_mem hl)
    · rw [List.getD_eq_default _ _ (by omega)]
      decide
  · rw [if_neg (by simp)] at h1
    rw [List.eq_of_mem_replicate h1]
    decide

theorem plainBlock_valid (der : List Byte) : (plainBlock der).Valid := by
  refine ⟨?_, ⟨0x0a#8, by decide, _, rfl⟩, by simp [plainBlock], ⟨0x0a#8, by decide, _, rfl⟩⟩
  change List.filter _ (0x0a#8 :: base64Text (alphabet '+' '/') false der ++ [0x0a#8]) = base64Text (alphabet '+' '/') false der
  have hw : whitespace.contains 0x0a#8 = true := by decide
  rw [List.filter_append, List.filter_cons, if_neg (by rw [hw]; decide), List.filter_cons, if_neg (by rw [hw]; decide), List.filter_nil, List.append_nil,
    List.filter_eq_self]
  intro c hc
  simpa using base64Text_nowhite der c hc

def bundleA : PemBlock := plainBlock (certDer (demoTbs 1 65537 none) [] [])
def bundleB : PemBlock := plainBlock (certDer (demoTbs 2 65537 none) [] [])

/-- The hypotheses of `C72_partial` hold for a bundle of two certificates with a comment before it. -/
example : 0x2d#8 ∉ ascii "my certificates\n" ∧ bundleA.Valid ∧ (∀ x ∈ [bundleB], x.Valid) ∧ (pemBundle (ascii "my certificates\n") [bundleA, bundleB]).length < 2 ^ 64 :=
  ⟨by decide, plainBlock_valid _, fun x hx => by rw [List.mem_singleton.mp hx]; exact plainBlock_valid _, by decide +kernel⟩

/-- C72 fails: of a bundle with two certificates the second is lost. -/
theorem C72_false : ¬ C72_claim := by
  intro h
  have hl : (pemBundle [] [bundleA, bundleB]).length < 2 ^ 64 := by decide +kernel
  have hv : ∀ b ∈ [bundleA, bundleB], b.Valid := by
    intro b hb
    simp only [List.mem_cons, List.not_mem_nil, or_false] at hb
    rcases hb with rfl | rfl <;> exact plainBlock_valid _
  have h1 := h [] [bundleA, bundleB] (by simp) hv hl
  rw [C72_partial [] bundleA [bundleB] (by simp) (plainBlock_valid _) (fun x hx => by rw [List.mem_singleton.mp hx]; exact plainBlock_valid _) hl] at h1
  obtain ⟨a, ea, ca⟩ := C80_partial (demoTbs 1 65537 none) [] [] (demoTbs_ordinary _ _ _ (by decide) (by decide +kernel)) ⟨rfl, rfl⟩ (by decide) (by decide) (by decide +kernel)
  obtain ⟨b, eb, cb⟩ := C80_partial (demoTbs 2 65537 none) [] [] (demoTbs_ordinary _ _ _ (by decide) (by decide +kernel)) ⟨rfl, rfl⟩ (by decide) (by decide) (by decide +kernel)
  have ea' : parseCertificate bundleA.der .Der = .ok a := ea
  have eb' : parseCertificate bundleB.der .Der = .ok b := eb
  rw [List.dropLast_cons_cons, List.dropLast_singleton, List.mapM_cons, List.mapM_cons, List.mapM_cons, ea', eb'] at h1
  have h2 : [a, a] = [a, b] := Except.ok.inj h1
  injection h2 with _ h2
  injection h2 with h2
  have s1 := ca.serial
  rw [h2, cb.serial] at s1
  exact absurd s1 (by decide)

end Verif.Props
