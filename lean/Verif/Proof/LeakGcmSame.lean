import Verif.Proof.LeakGcm

/-! Runs of GCM with the same events. -/

namespace Verif.Proof

open Verif.Model

variable {α β γ δ S : Type} {view : Obs → Obs}

theorem Same.ite {R : α → β → Prop} {c c' : Prop} [Decidable c] [Decidable c'] (h : c ↔ c') {x x' : Leak α} {y y' : Leak β} (ht : c → Same view R x y)
    (he : ¬ c → Same view R x' y') : Same view R (if c then x else x') (if c' then y else y') := by
  by_cases hc : c
  · rw [if_pos hc, if_pos (h.mp hc)]; exact ht hc
  · rw [if_neg hc, if_neg fun h' => hc (h.mpr h')]; exact he hc

theorem Same.loadu {a b : List Byte} (h : SL a b) (off : Nat) : Same view (fun _ _ => True) (loaduL a off) (loaduL b off) := by
  refine ⟨rfl, ?_⟩
  rw [res_loadu, res_loadu, Model.loadu, Model.loadu, ← h]
  by_cases hl : off + 16 ≤ a.length
  · rw [if_pos hl, if_pos hl]; trivial
  · rw [if_neg hl, if_neg hl]

theorem Same.storeAt {a b : List Byte} (h : SL a b) (off : Nat) (v w : M128) : Same view SL (storeAtL a off v) (storeAtL b off w) := by
  refine ⟨rfl, ?_⟩
  rw [res_storeAt, res_storeAt, Model.storeAt, Model.storeAt, ← h]
  by_cases hl : off + 16 ≤ a.length
  · rw [if_pos hl, if_pos hl]
    show (overwrite a off (storeu v)).length = (overwrite b off (storeu w)).length
    rw [overwrite_length (by rw [storeu_length]; exact hl), overwrite_length (by rw [storeu_length]; exact h ▸ hl), h]
  · rw [if_neg hl, if_neg hl]

/-- A cipher whose events do not depend on key and block; `R` relates schedules. -/
structure CtCipher (C : CipherL S) (R : S → S → Prop) : Prop where
  schedule : ∀ k k', SL k k' → Same id R (C.schedule k) (C.schedule k')
  encrypt : ∀ s s' b b', R s s' → Same id (fun _ _ => True) (C.encrypt s b) (C.encrypt s' b')

theorem same_aesEncrypt (bits : Nat) {s s' : List M128} (h : SL s s') (b b' : M128) : Same view (fun _ _ => True) (aesEncryptL bits s b) (aesEncryptL bits s' b') :=
  Same.bind (Same.rd h _) fun _ _ _ => Same.bind (R := fun _ _ => True) (Same.loop _ trivial fun _ _ _ _ => Same.bind (Same.rd h _) fun _ _ _ => Same.pure trivial)
    fun _ _ _ => Same.bind (Same.rd h _) fun _ _ _ => Same.pure trivial

theorem chain128_length (k : M128) : (aesChain128 k).length = 11 := by rw [aesChain128]; simp only [List.length_cons, List.length_nil]

theorem aes128_ct (junk : List Byte) : CtCipher (aesCipher128L junk) SL where
  schedule k k' h := by
    refine Same.bind (Same.emit (by rw [h])) fun _ _ _ => Same.bind (R := fun _ _ => True) ⟨rfl, trivial⟩ fun _ _ _ => ⟨rfl, ?_⟩
    rw [res_ofOut, res_ofOut, aesSchedule128, aesSchedule128, ← h]
    by_cases hl : k.length ≤ 176
    · rw [if_pos hl, if_pos hl]
      exact (chain128_length _).trans (chain128_length _).symm
    · rw [if_neg hl, if_neg hl]
  encrypt _ _ b b' h := same_aesEncrypt 128 h b b'

theorem aes256_ct : CtCipher aesCipher256L SL where
  schedule k k' h := Same.bind (Same.loadu h _) fun _ _ _ => Same.bind (Same.loadu h _) fun _ _ _ => Same.bind (R := fun _ _ => True) ⟨rfl, trivial⟩
    fun _ _ _ => Same.pure rfl
  encrypt _ _ b b' h := same_aesEncrypt 256 h b b'

/-- Counters with the same last bytes -/
def LowEq (a b : List Byte) : Prop := SL a b ∧ ∀ i, 12 ≤ i → a.getD i 0#8 = b.getD i 0#8

theorem byte_getD_set (a : List Byte) (i j : Nat) (x : Byte) : (a.set i x).getD j 0#8 = if i = j ∧ i < a.length then x else a.getD j 0#8 := by
  rw [List.getD_eq_getElem?_getD, List.getElem?_set, List.getD_eq_getElem?_getD]
  by_cases h : i = j
  · subst h
    by_cases hl : i < a.length
    · simp [hl]
    · simp [hl]
  · simp [h]

theorem LowEq.set {a b : List Byte} (h : LowEq a b) (i : Nat) {x y : Byte} (hx : 12 ≤ i → x = y) : LowEq (a.set i x) (b.set i y) := by
  refine ⟨by rw [SL, List.length_set, List.length_set]; exact h.1, fun j hj => ?_⟩
  rw [byte_getD_set, byte_getD_set, h.1]
  split
  · rename_i hc
    exact hx (by omega)
  · exact h.2 j hj

theorem same_ctrInc {a b : List Byte} (h : LowEq a b) : Same view LowEq (ctrIncL a) (ctrIncL b) := by
  rw [ctrIncL, ctrIncL]
  have h1 := h.set 15 (x := a.getD 15 0#8 + 1#8) (y := b.getD 15 0#8 + 1#8) fun _ => by rw [h.2 15 (by omega)]
  refine Same.bind (Same.emit rfl) fun _ _ _ => ?_
  generalize a.set 15 (a.getD 15 0#8 + 1#8) = a at h1
  generalize b.set 15 (b.getD 15 0#8 + 1#8) = b at h1
  refine Same.bind (Same.emit (by rw [h1.2 15 (by omega)])) fun _ _ _ => Same.ite (by rw [h1.2 15 (by omega)]) (fun _ => Same.pure h1) fun _ => ?_
  have h2 := h1.set 14 (x := a.getD 14 0#8 + 1#8) (y := b.getD 14 0#8 + 1#8) fun _ => by rw [h1.2 14 (by omega)]
  refine Same.bind (Same.emit rfl) fun _ _ _ => ?_
  generalize a.set 14 (a.getD 14 0#8 + 1#8) = a at h2
  generalize b.set 14 (b.getD 14 0#8 + 1#8) = b at h2
  refine Same.bind (Same.emit (by rw [h2.2 14 (by omega)])) fun _ _ _ => Same.ite (by rw [h2.2 14 (by omega)]) (fun _ => Same.pure h2) fun _ => ?_
  have h3 := h2.set 13 (x := a.getD 13 0#8 + 1#8) (y := b.getD 13 0#8 + 1#8) fun _ => by rw [h2.2 13 (by omega)]
  refine Same.bind (Same.emit rfl) fun _ _ _ => ?_
  generalize a.set 13 (a.getD 13 0#8 + 1#8) = a at h3
  generalize b.set 13 (b.getD 13 0#8 + 1#8) = b at h3
  refine Same.bind (Same.emit (by rw [h3.2 13 (by omega)])) fun _ _ _ => Same.ite (by rw [h3.2 13 (by omega)]) (fun _ => Same.pure h3) fun _ => ?_
  exact Same.bind (Same.emit rfl) fun _ _ _ => Same.pure (h3.set 12 fun _ => by rw [h3.2 12 (by omega)])

/-- IVs from which the counters start with the same last bytes -/
def IvEq (a b : List Byte) : Prop := SL a b ∧ (a.length = 12 ∨ ∀ i, 12 ≤ i → a.getD i 0#8 = b.getD i 0#8)

theorem lowEq_xorCounter {a b : List Byte} (h : LowEq a b) (c d : U64) : LowEq (xorCounter a c) (xorCounter b d) := by
  have key : ∀ l : List Nat, (∀ k ∈ l, k < 8) → ∀ a b, LowEq a b → LowEq
      (l.foldl (fun ctr k => ctr.set (4 + k) (ctr.getD (4 + k) 0#8 ^^^ ((c >>> (56 - 8 * k)) &&& 0xFF#64).setWidth 8)) a)
      (l.foldl (fun ctr k => ctr.set (4 + k) (ctr.getD (4 + k) 0#8 ^^^ ((d >>> (56 - 8 * k)) &&& 0xFF#64).setWidth 8)) b) := by
    intro l
    induction l with
    | nil => intro _ a b h; exact h
    | cons k l ih =>
      intro hl a b h
      have hk := hl k List.mem_cons_self
      exact ih (fun j hj => hl j (List.mem_cons_of_mem _ hj)) _ _ (h.set _ fun h12 => by omega)
  exact key _ (fun k hk => List.mem_range.mp hk) a b h

theorem same_ctrStart {a b : List Byte} (h : IvEq a b) (c d : U64) : Same view LowEq (ctrStartL a c) (ctrStartL b d) := by
  refine Same.bind (Same.emit (by rw [h.1])) fun _ _ _ => Same.bind (Same.emit (by rw [h.1])) fun _ _ _ => ⟨rfl, ?_⟩
  rw [res_ofOut, res_ofOut, ctrStart, ctrStart, ← h.1]
  by_cases h16 : a.length ≤ 16
  · rw [if_pos h16, if_pos h16]
    show LowEq _ _
    have hz : ∀ l : List Byte, l.length ≤ 16 → (overwrite (List.replicate 16 0#8) 0 l).length = 16 := fun l hl => by
      rw [overwrite_length (by rw [List.length_replicate]; omega), List.length_replicate]
    by_cases h12 : a.length = 12
    · rw [if_pos h12, if_pos h12]
      have hx : ∀ l : List Byte, ∀ c, (xorCounter l c).length = l.length := by
        intro l c
        simp only [xorCounter, List.range, List.range.loop, List.foldl, List.length_set]
      refine ⟨by simp only [SL, List.length_set, hx, hz _ h16, hz _ (h.1 ▸ h16)], fun i hi => ?_⟩
      simp only [byte_getD_set, List.length_set, hx, hz _ h16, hz _ (h.1 ▸ h16)]
      by_cases e15 : 15 = i
      · simp [e15.symm]
      by_cases e14 : 14 = i
      · simp [e14.symm]
      by_cases e13 : 13 = i
      · simp [e13.symm]
      by_cases e12 : 12 = i
      · simp [e12.symm]
      simp only [e15, e14, e13, e12, false_and, if_false]
      rw [List.getD_eq_default _ _ (by rw [hx, hz _ h16]; omega), List.getD_eq_default _ _ (by rw [hx, hz _ (h.1 ▸ h16)]; omega)]
    · rw [if_neg h12, if_neg h12]
      refine lowEq_xorCounter ⟨(hz _ h16).trans (hz _ (h.1 ▸ h16)).symm, fun i hi => ?_⟩ c d
      have hlow := h.2.resolve_left h12
      rw [overwrite, overwrite, List.take_zero, List.nil_append, List.nil_append, ← h.1]
      rw [List.getD_eq_getElem?_getD, List.getD_eq_getElem?_getD]
      have := hlow i hi
      rw [List.getD_eq_getElem?_getD, List.getD_eq_getElem?_getD] at this
      by_cases hl : i < a.length
      · rw [List.getElem?_append_left hl, List.getElem?_append_left (h.1 ▸ hl), this]
      · rw [List.getElem?_append_right (by omega), List.getElem?_append_right (by rw [← h.1]; omega), h.1]
  · rw [if_neg h16, if_neg h16]

theorem same_hashData (h h' c c' : M128) {a b : List Byte} (hl : SL a b) : Same view (fun _ _ => True) (gcmHashDataL h c a) (gcmHashDataL h' c' b) := by
  rw [gcmHashDataL, gcmHashDataL, ← hl]
  refine Same.bind (R := fun _ _ => True) (Same.loop _ trivial fun _ _ _ _ => Same.bind (Same.loadu hl _) fun _ _ _ => Same.pure trivial) fun _ _ _ =>
    Same.bind (Same.emit rfl) fun _ _ _ => Same.ite Iff.rfl (fun _ => Same.bind (Same.emit rfl) fun _ _ _ => Same.bind (Same.emit rfl) fun _ _ _ =>
      Same.bind (Same.loadu ?_ _) fun _ _ _ => Same.pure trivial) fun _ => Same.pure trivial
  simp only [SL, List.length_append, List.length_take, List.length_drop, hl]

theorem same_ghash (h h' : M128) {a a' c c' : List Byte} (hc : SL c c') (ha : SL a a') : Same view (fun x y => x.length = 16 ∧ y.length = 16) (gcmGhashL h c a) (gcmGhashL h' c' a') := by
  rw [gcmGhashL, gcmGhashL]
  refine Same.bind (same_hashData _ _ _ _ ha) fun _ _ _ => Same.bind (same_hashData _ _ _ _ hc) fun _ _ _ => Same.bind (Same.loadu ?_ _) fun _ _ _ =>
    Same.pure ⟨storeu_length _, storeu_length _⟩
  rw [hc, ha]

theorem same_tag (h h' z z' : M128) {a a' c c' : List Byte} (hc : SL c c') (ha : SL a a') :
    Same view (fun x y => x.length = 16 ∧ y.length = 16) (gcmTagL h z c a) (gcmTagL h' z' c' a') :=
  Same.bind (same_ghash _ _ hc ha) fun _ _ hl => Same.bind (Same.loadu (hl.1.trans hl.2.symm) _) fun _ _ _ => Same.pure ⟨storeu_length _, storeu_length _⟩

theorem same_xorInto {d d' s s' : List Byte} (hd : SL d d') (hs : SL s s') (off count : Nat) : Same view SL (xorIntoL d s off count) (xorIntoL d' s' off count) :=
  Same.loop _ hd fun _ _ _ h => Same.bind (Same.rd h _) fun _ _ _ => Same.bind (Same.rd hs _) fun _ _ _ => Same.wr h _ _ _

/-- The states of two sessions with the same events -/
structure SameGcm (R : S → S → Prop) (g g' : Gcm S) : Prop where
  sched : R g.sched g'.sched
  iv : IvEq g.iv g'.iv

variable {C : CipherL S} {R : S → S → Prop}

theorem same_encLog (hC : CtCipher C R) {s s' : S} (hs : R s s') (l l' : List M128) (b b' : M128) :
    Same id (fun _ _ => True) (encLogL C s l b) (encLogL C s' l' b') :=
  Same.bind (hC.encrypt _ _ _ _ hs) fun _ _ _ => Same.pure trivial

/-- Counters and buffers of two sessions with the same events -/
def SameRun (p q : List Byte × List Byte × List M128) : Prop := LowEq p.1 q.1 ∧ SL p.2.1 q.2.1

theorem same_decBlock (hC : CtCipher C R) {s s' : S} (hs : R s s') {c c' : List Byte} (hc : SL c c') {p q : List Byte × List Byte × List M128} (h : SameRun p q) (n : Nat) :
    Same id SameRun (gcmDecBlockL C s c p n) (gcmDecBlockL C s' c' q n) := by
  rw [gcmDecBlockL, gcmDecBlockL, ← hc]
  exact Same.bind (same_ctrInc h.1) fun _ _ hl => Same.bind (Same.loadu hl.1 _) fun _ _ _ => Same.bind (same_encLog hC hs _ _ _ _) fun _ _ _ =>
    Same.bind (Same.storeAt h.2 _ _ _) fun _ _ hp => Same.bind (same_xorInto hp hc _ _) fun _ _ hp => Same.pure ⟨hl, hp⟩

theorem same_encBlock (hC : CtCipher C R) {s s' : S} (hs : R s s') {c c' : List Byte} (hc : SL c c') {p q : List Byte × List Byte × List M128} (h : SameRun p q) (n : Nat) :
    Same id SameRun (gcmEncBlockL C s c p n) (gcmEncBlockL C s' c' q n) :=
  Same.bind (same_ctrInc h.1) fun _ _ hl => Same.bind (Same.loadu hl.1 _) fun _ _ _ => Same.bind (same_encLog hC hs _ _ _ _) fun _ _ _ =>
    Same.bind (Same.loadu hc _) fun _ _ _ => Same.bind (Same.storeAt h.2 _ _ _) fun _ _ hp => Same.pure ⟨hl, hp⟩

theorem vecResize_length (v : List Byte) (n : Nat) : (vecResize v n).length = n := by
  rw [vecResize, List.length_append, List.length_take, List.length_replicate]; omega

theorem same_encLast (hC : CtCipher C R) {s s' : S} (hs : R s s') {c c' : List Byte} (hc : SL c c') (full : Nat) {p q : List Byte × List Byte × List M128} (h : SameRun p q)
    (n : Nat) : Same id SameRun (gcmEncLastL C s c full p n) (gcmEncLastL C s' c' full q n) := by
  rw [gcmEncLastL, gcmEncLastL, ← hc]
  exact Same.bind (same_ctrInc h.1) fun _ _ hl => Same.bind (Same.loadu hl.1 _) fun _ _ _ => Same.bind (same_encLog hC hs _ _ _ _) fun _ _ _ =>
    Same.bind (Same.storeAt h.2 _ _ _) fun _ _ hp => Same.bind (same_xorInto hp hc _ _) fun _ _ hp => Same.bind (Same.emit rfl) fun _ _ _ =>
    Same.pure ⟨hl, (vecResize_length _ _).trans (vecResize_length _ _).symm⟩

theorem same_gcmNew (hC : CtCipher C R) (z z' : M128) {k k' v v' : List Byte} (hk : SL k k') (hv : SL v v') :
    Same id (fun g g' => R g.sched g'.sched ∧ SL g.iv g'.iv ∧ (v.length = 12 → g.iv.length = 12)) (gcmNewL C z k v) (gcmNewL C z' k' v') := by
  rw [gcmNewL, gcmNewL, ← hv]
  refine Same.bind (hC.schedule _ _ hk) fun _ _ hs => Same.bind (hC.encrypt _ _ _ _ hs) fun _ _ _ => Same.bind (Same.emit rfl) fun _ _ _ => Same.ite Iff.rfl
    (fun h => Same.bind (same_ghash _ _ hv rfl) fun _ _ hl => Same.pure ⟨hs, hl.1.trans hl.2.symm, fun h' => by omega⟩) fun _ => Same.pure ⟨hs, hv, fun h => h⟩

theorem same_decMain (hC : CtCipher C R) {g g' : Gcm S} (hg : SameGcm R g g') {c c' a a' : List Byte} (hc : SL c c') (ha : SL a a') :
    Same id (fun r r' => match r, r' with
      | none, none => g.iv.length < 12
      | some p, some p' => 12 ≤ g.iv.length ∧ SL p.1 p'.1 ∧ p.2.1.length = 16 ∧ p'.2.1.length = 16 ∧ SameGcm R p.2.2 p'.2.2
      | _, _ => False) (gcmDecMainL C g c a) (gcmDecMainL C g' c' a') := by
  rw [gcmDecMainL, gcmDecMainL, ← hg.iv.1, ← hc]
  refine Same.bind (Same.emit rfl) fun _ _ _ => Same.ite Iff.rfl (fun h => Same.pure h) fun h12 => ?_
  refine Same.bind (same_ctrStart hg.iv _ _) fun _ _ hl => Same.bind (Same.loadu hl.1 _) fun _ _ _ => Same.bind (same_encLog hC hg.sched _ _ _ _) fun _ _ _ =>
    Same.bind (R := SameRun) (Same.loop _ ⟨hl, rfl⟩ fun n _ _ h => same_decBlock hC hg.sched hc h n) fun _ _ hr => Same.bind (same_tag _ _ _ _ hc ha) fun _ _ ht =>
    Same.pure ⟨Nat.not_lt.mp h12, (vecResize_length _ _).trans (vecResize_length _ _).symm, ht.1, ht.2, hg.sched, hg.iv⟩

theorem same_encrypt (hC : CtCipher C R) {g g' : Gcm S} (hg : SameGcm R g g') {p p' a a' : List Byte} (hp : SL p p') (ha : SL a a') :
    Same id (fun r r' => SL r.1.1 r'.1.1 ∧ SL r.1.2 r'.1.2 ∧ SameGcm R r.2 r'.2) (gcmEncryptL C g p a) (gcmEncryptL C g' p' a') := by
  rw [gcmEncryptL, gcmEncryptL, ← hg.iv.1, ← hp]
  refine Same.bind (Same.emit rfl) fun _ _ _ => Same.ite Iff.rfl (fun h => Same.pure ⟨rfl, rfl, hg⟩) fun h12 => ?_
  refine Same.bind (same_ctrStart hg.iv _ _) fun _ _ hl => Same.bind (Same.loadu hl.1 _) fun _ _ _ => Same.bind (same_encLog hC hg.sched _ _ _ _) fun _ _ _ =>
    Same.bind (Same.emit rfl) fun _ _ _ =>
    Same.bind (R := SameRun) (Same.loop _ ⟨hl, rfl⟩ fun n _ _ h => same_encBlock hC hg.sched hp h n) fun _ _ hr =>
    Same.bind (R := SameRun) (Same.loop _ hr fun n _ _ h => same_encLast hC hg.sched hp _ h n) fun _ _ hr => Same.bind (same_tag _ _ _ _ hr.2 ha) fun _ _ ht =>
    Same.pure ⟨hr.2, ht.1.trans ht.2.symm, hg.sched, hg.iv⟩

end Verif.Proof
