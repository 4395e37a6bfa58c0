import Verif.Proof.KeySizes
import Verif.Model.Truststore

/-! The loops of the certificate reader come to an end. -/

namespace Verif.Proof
open Verif.Model Verif.Spec

/-- The computation comes to an end, in whatever way. -/
def Ends {α : Type} (x : Out α) : Prop := x ≠ .error .diverges

theorem ends_ok {α : Type} (a : α) : Ends (.ok a : Out α) := fun h => nomatch h
theorem ends_pure {α : Type} (a : α) : Ends (pure a : Out α) := fun h => nomatch h
theorem ends_ub {α : Type} : Ends (.error .ub : Out α) := fun h => nomatch h
theorem ends_thrown {α : Type} : Ends (.error .thrown : Out α) := fun h => nomatch h

theorem ends_bind {α β : Type} {x : Out α} {f : α → Out β} (hx : Ends x) (hf : ∀ a, x = .ok a → Ends (f a)) : Ends (x >>= f) := by
  cases x with
  | error e => intro h; exact hx (by cases h; rfl)
  | ok a => exact hf a rfl

theorem ends_ite {α : Type} {p : Prop} [Decidable p] {x y : Out α} (hx : p → Ends x) (hy : ¬ p → Ends y) : Ends (if p then x else y) := by
  split
  · next h => exact hx h
  · next h => exact hy h

theorem ends_rd {α : Type} (l : List α) (i : Nat) : Ends (rd l i) := by
  rw [rd]; split <;> exact fun h => nomatch h

theorem ends_get (s : Span) (i : Nat) : Ends (s.get i) := ends_ite (fun _ => ends_rd _ _) (fun _ => ends_ub)

theorem get_lt {s : Span} {i : Nat} {b : Byte} (h : s.get i = .ok b) : i < s.size := by
  rw [Span.get] at h
  split at h
  · assumption
  · exact nomatch h

theorem ends_lenLoop (d : Span) : ∀ k size offset, Ends (lenLoop d k size offset)
  | 0, _, _ => ends_ok _
  | k + 1, _, _ => ends_bind (ends_get _ _) (fun _ _ => ends_lenLoop d k _ _)

theorem lenLoop_offset (d : Span) : ∀ k size offset p, lenLoop d k size offset = .ok p → offset ≤ p.2
  | 0, _, _, p, h => by cases h; exact Nat.le_refl _
  | k + 1, size, offset, p, h => by
    rw [lenLoop] at h
    cases e : d.get offset with
    | error _ => rw [e] at h; exact nomatch h
    | ok b => rw [e] at h; exact Nat.le_of_succ_le (lenLoop_offset d k _ _ p h)

theorem ends_readLen (d : Span) (l : Byte) (offset : Nat) : Ends (readLen d l offset) := ends_ite (fun _ => ends_lenLoop _ _ _ _) (fun _ => ends_ok _)

theorem readLen_offset {d : Span} {l : Byte} {offset : Nat} {p : Nat × Nat} (h : readLen d l offset = .ok p) : offset ≤ p.2 := by
  rw [readLen] at h
  split at h
  · exact lenLoop_offset _ _ _ _ _ h
  · cases h; exact Nat.le_refl _

theorem ends_read (v : View) : Ends v.read :=
  ends_bind (ends_get _ _) (fun _ _ => ends_bind (ends_get _ _) (fun _ _ => ends_bind (ends_readLen _ _ _) (fun _ _ => ends_ite (fun _ => ends_ub) (fun _ => ends_ok _))))

/-- A successful `read` started inside the data and went on by at least two bytes. -/
theorem read_progress {v : View} {r : (Byte × Span) × View} (h : v.read = .ok r) : r.2.data = v.data ∧ v.offset + 1 < v.data.size ∧ v.offset + 2 ≤ r.2.offset := by
  rw [View.read] at h
  cases e1 : v.data.get v.offset with
  | error _ => rw [e1] at h; exact nomatch h
  | ok id =>
    rw [e1] at h
    change (v.data.get (v.offset + 1) >>= _) = _ at h
    cases e2 : v.data.get (v.offset + 1) with
    | error _ => rw [e2] at h; exact nomatch h
    | ok l =>
      rw [e2] at h
      change (readLen v.data l (v.offset + 2) >>= _) = _ at h
      cases e3 : readLen v.data l (v.offset + 2) with
      | error _ => rw [e3] at h; exact nomatch h
      | ok p =>
        rw [e3] at h
        change (if _ then _ else _) = _ at h
        split at h
        · exact nomatch h
        · injection h with h
          rw [← h]
          exact ⟨rfl, get_lt e2, Nat.le_trans (readLen_offset e3) (Nat.le_add_right _ _)⟩

theorem ends_parseString (v : View) : Ends (parseString v) := ends_bind (ends_read v) (fun _ _ => ends_ite (fun _ => ends_pure _) (fun _ => ends_pure _))

theorem ends_readOidAndString (v : View) : Ends (readOidAndString v) := by
  refine ends_bind (ends_read v) (fun r _ => ends_ite (fun _ => ends_pure _) (fun _ => ?_))
  refine ends_bind (ends_read _) (fun r2 _ => ends_ite (fun _ => ends_pure _) (fun _ => ?_))
  refine ends_bind (ends_read _) (fun r3 _ => ends_ite (fun _ => ends_pure _) (fun _ => ?_))
  exact ends_bind (ends_parseString _) (fun _ _ => ends_pure _)

theorem bind_inv {α β : Type} {x : Out α} {f : α → Out β} {b : β} (h : (x >>= f) = .ok b) : ∃ a, x = .ok a ∧ f a = .ok b := by
  cases x with
  | error _ => exact nomatch h
  | ok a => exact ⟨a, rfl, h⟩

theorem oid_progress {v : View} {r : (List Byte × List Byte) × View} (h : readOidAndString v = .ok r) :
    r.2.data = v.data ∧ v.offset + 1 < v.data.size ∧ v.offset + 2 ≤ r.2.offset := by
  obtain ⟨a, ha, h⟩ := bind_inv h
  have hp := read_progress ha
  suffices hr : r.2 = a.2 by rw [hr]; exact hp
  split at h
  · cases h; rfl
  · obtain ⟨a2, -, h⟩ := bind_inv h
    split at h
    · cases h; rfl
    · obtain ⟨a3, -, h⟩ := bind_inv h
      split at h
      · cases h; rfl
      · obtain ⟨a4, -, h⟩ := bind_inv h
        cases h; rfl

theorem ends_nameLoop : ∀ (k : Nat) (rv : Name) (v : View), 0 < k → v.data.size + 1 ≤ k + v.offset → Ends (nameLoop k rv v)
  | 0, _, _, h, _ => absurd h (by decide)
  | k + 1, rv, v, _, hk => by
    rw [nameLoop]
    refine ends_ite (fun _ => ends_ok _) (fun _ => ends_bind (ends_readOidAndString v) (fun r hr => ?_))
    obtain ⟨h1, h2, h3⟩ := oid_progress hr
    cases nameSet rv r.1.1 r.1.2 with
    | none => exact ends_ok _
    | some rv => exact ends_nameLoop k rv r.2 (by omega) (by rw [h1]; omega)

theorem ends_parseName (v : View) : Ends (parseName v) := ends_nameLoop _ _ _ (Nat.succ_pos _) (Nat.le_add_right _ _)

theorem ends_tailLoop : ∀ (k : Nat) (v : View), 0 < k → v.data.size + 1 ≤ k + v.offset → Ends (tailLoop k v)
  | 0, _, h, _ => absurd h (by decide)
  | k + 1, v, _, hk => by
    rw [tailLoop]
    refine ends_ite (fun _ => ends_ok _) (fun _ => ends_bind (ends_read v) (fun r hr => ends_ite (fun _ => ?_) (fun _ => ends_ok _)))
    obtain ⟨h1, h2, h3⟩ := read_progress hr
    exact ends_tailLoop k r.2 (by omega) (by rw [h1]; omega)

theorem ends_twoDigits (b : List Byte) (i : Nat) : Ends (twoDigits b i) := ends_bind (ends_rd _ _) (fun _ _ => ends_bind (ends_rd _ _) (fun _ _ => ends_pure _))

theorem ends_cond {α : Type} {p : Bool} {x y : Out α} (hx : Ends x) (hy : Ends y) : Ends (bif p then x else y) := by cases p <;> assumption

theorem ends_dateFormula (a b c d e f : Int) : Ends (dateFormula a b c d e f) := ends_bind (ends_rd _ _) (fun _ _ => ends_pure _)

theorem ends_dateOf (b : List Byte) : Ends (dateOf b) := by
  refine ends_ite (fun _ => ends_ok _) (fun _ => ?_)
  refine ends_bind (ends_rd _ _) (fun _ _ => ends_bind (ends_rd _ _) (fun _ _ => ends_bind (ends_rd _ _) (fun _ _ => ends_bind (ends_rd _ _) (fun _ _ => ?_))))
  refine ends_bind (ends_twoDigits _ _) (fun _ _ => ends_ite (fun _ => ends_ok _) (fun _ => ?_))
  refine ends_bind (ends_twoDigits _ _) (fun _ _ => ends_bind (ends_twoDigits _ _) (fun _ _ => ?_))
  refine ends_bind (ends_cond (ends_twoDigits _ _) (ends_ok _)) (fun _ _ => ends_bind (ends_cond (ends_twoDigits _ _) (ends_ok _)) (fun _ _ => ends_dateFormula _ _ _ _ _ _))

theorem ends_parseDate (v : View) : Ends (parseDate v) := by
  refine ends_bind (ends_read v) (fun r _ => ends_bind ?_ (fun _ _ => ends_pure _))
  cases r.1.2.bytes with
  | nil => exact ends_ub
  | cons a l => exact ends_ite (fun _ => ends_ok _) (fun _ => ends_ite (fun _ => ends_dateOf _) (fun _ => ends_ite (fun _ => ends_dateOf _) (fun _ => ends_ok _)))

theorem ends_parseBignum (N : Nat) (v : View) : Ends (parseBignum N v) := ends_bind (ends_read v) (fun _ _ => ends_ite (fun _ => ends_pure _) (fun _ => ends_pure _))

theorem ends_parseInt (v : View) : Ends (parseInt v) := ends_bind (ends_read v) (fun _ _ => ends_ite (fun _ => ends_pure _) (fun _ => ends_pure _))

theorem ends_parseVersion (v : View) : Ends (parseVersion v) := by
  refine ends_bind (ends_get _ _) (fun _ _ => ends_ite (fun _ => ?_) (fun _ => ends_pure _))
  exact ends_bind (ends_read v) (fun _ _ => ends_bind (ends_parseInt _) (fun _ _ => ends_ite (fun _ => ends_ub) (fun _ => ends_ite (fun _ => ends_pure _) (fun _ => ends_pure _))))

theorem ends_drop (s : Span) (k : Nat) : Ends (s.drop k) := ends_ite (fun _ => ends_ok _) (fun _ => ends_ub)

theorem ends_substr (s : List Byte) (a n : Nat) : Ends (substr s a n) := ends_ite (fun _ => ends_thrown) (fun _ => ends_ok _)

theorem ends_pemBody (a b c : List Byte) : Ends (pemBody a b c) := ends_bind (ends_substr _ _ _) (fun _ _ => ends_pure _)

/-- If the whole does not end and the first part does, then the second does not. -/
theorem stuck_bind {α β : Type} {x : Out α} {f : α → Out β} (h : (x >>= f) = .error .diverges) (hx : Ends x) : ∃ a, x = .ok a ∧ f a = .error .diverges := by
  cases x with
  | error e => exact absurd (show (Except.error e : Out α) = .error .diverges by cases h; rfl) hx
  | ok a => exact ⟨a, rfl, h⟩

theorem findFrom_bound {s pat : List Byte} {pos i : Nat} (h : findFrom s pat pos = some i) : pos ≤ i ∧ i ≤ s.length := by
  rw [findFrom] at h
  have h1 := List.find?_some h
  have h2 := List.mem_of_find?_eq_some h
  rw [List.mem_range] at h2
  rw [Bool.and_eq_true, decide_eq_true_eq] at h1
  exact ⟨h1.1, by omega⟩

theorem stuck_bundle (buffer : List Byte) : ∀ (k start : Nat) (stop : Option Nat) (certs : List Cert), (∀ s, stop = some s → s ≤ buffer.length ∧ buffer.length + 1 ≤ k + s) →
    bundleLoop buffer k start stop certs = .error .diverges → ∃ p, parseCertificate p .Pem = .error .diverges
  | k, _, none, _, _, h => by rw [bundleLoop.eq_def] at h; exact nomatch h
  | 0, start, some s, certs, hk, h => by
    have := hk s rfl
    omega
  | k + 1, start, some s, certs, hk, h => by
    rw [bundleLoop] at h
    obtain ⟨p, -, h⟩ := stuck_bind h (ends_substr _ _ _)
    by_cases hp : parseCertificate p .Pem = .error .diverges
    · exact ⟨p, hp⟩
    · obtain ⟨c, -, h⟩ := stuck_bind h hp
      exact stuck_bundle buffer k _ _ _ (fun s' hs => by have := findFrom_bound hs; have := hk s rfl; omega) h

/-- The content of an element lies in the bytes behind the start of the data it was read from. -/
theorem read_suffix {v : View} {r : (Byte × Span) × View} (h : v.read = .ok r) : r.1.2.rest <:+ v.data.rest ∧ r.2.data.rest = v.data.rest := by
  refine ⟨?_, by rw [(read_progress h).1]⟩
  obtain ⟨id, -, h⟩ := bind_inv h
  obtain ⟨l, -, h⟩ := bind_inv h
  obtain ⟨p, -, h⟩ := bind_inv h
  split at h
  · exact nomatch h
  · injection h with h
    rw [← h]
    exact List.drop_suffix _ _

theorem span_bytes_infix (s : Span) : s.bytes <:+: s.rest := (List.take_prefix _ _).isInfix

theorem montNew_stuck (w : Nat) (hw : 0 < w) (N : List U32) (hN : N.length = w) : montNew (32 * w) N = .error .diverges ↔ value N = 0 := by
  have h := montNew_any w hw N hN
  split at h
  · next h0 => exact ⟨fun _ => h0, fun _ => h⟩
  · next h0 =>
    obtain ⟨st, h⟩ := h
    exact ⟨fun e => (nomatch h.symm.trans e), fun e => absurd e h0⟩

theorem ends_bitLenLoop (n : List U32) : ∀ k, Ends (bitLenLoop n k)
  | 0 => ends_bind (ends_bind (ends_rd _ _) (fun _ _ => ends_pure _)) (fun _ _ => ends_ite (fun _ => ends_ub) (fun _ => ends_pure _))
  | k + 1 => ends_bind (ends_bind (ends_rd _ _) (fun _ _ => ends_pure _)) (fun _ _ => ends_ite (fun _ => ends_bitLenLoop n k) (fun _ => ends_pure _))

theorem parseBignum_width {N : Nat} (hN : 0 < N) {v : View} {x : List U32 × View} (h : parseBignum N v = .ok x) : x.1.length = bnN N := by
  obtain ⟨r, -, h⟩ := bind_inv h
  split at h
  · cases h; exact (bnOfU32_spec N hN 0#32).1
  · cases h; exact (bnOfBytes_spec N _).1

end Verif.Proof
