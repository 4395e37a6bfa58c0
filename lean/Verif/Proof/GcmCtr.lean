import Verif.Proof.Gcm

/-! Galois/counter mode: tags, counter mode, whole messages. -/

namespace Verif.Proof

open Verif.Model Verif.Spec Verif.Spec.Gcm

/-- A block cipher on registers as a function on 16-byte blocks. -/
def ciph (E : M128 → M128) (l : List Byte) : List Byte := storeu (E (loadBytes l))

theorem ciph_length (E : M128 → M128) (l : List Byte) : (ciph E l).length = 16 := storeu_length _

theorem gctr_nil (c : List Byte → List Byte) (icb : List Byte) : gctr c icb [] = [] := by rw [gctr]; simp

theorem gctr_cons (c : List Byte → List Byte) (icb x : List Byte) (h : x.length ≠ 0) :
    gctr c icb x = xorBytes (x.take 16) (c icb) ++ gctr c (inc32 icb) (x.drop 16) := by
  rw [gctr]; simp only [h, dite_false]

theorem gctr_block (c : List Byte → List Byte) (icb x : List Byte) (h : x.length = 16) : gctr c icb x = xorBytes x (c icb) := by
  rw [gctr_cons _ _ _ (by omega), List.take_of_length_le (by omega), List.drop_of_length_le (by omega), gctr_nil, List.append_nil]

theorem xorBytes_getD (a b : List Byte) (i : Nat) (ha : i < a.length) (hb : i < b.length) :
    (xorBytes a b).getD i 0#8 = a.getD i 0#8 ^^^ b.getD i 0#8 := by
  rw [List.getD_eq_getElem _ _ ha, List.getD_eq_getElem _ _ hb, xorBytes, List.getD_eq_getElem _ _ (by simp; omega), List.getElem_zipWith]

theorem xorBytes_length (a b : List Byte) : (xorBytes a b).length = min a.length b.length := by simp [xorBytes]

/-- Byte `i` of the counter mode keystream. -/
def ksByte (c : List Byte → List Byte) (icb : List Byte) (i : Nat) : Byte := (c (inc32^[i / 16] icb)).getD (i % 16) 0#8

theorem gctr_spec (c : List Byte → List Byte) (hc : ∀ l, (c l).length = 16) : ∀ (n : Nat) (icb x : List Byte), x.length ≤ n →
    (gctr c icb x).length = x.length ∧ ∀ i, i < x.length → (gctr c icb x).getD i 0#8 = x.getD i 0#8 ^^^ ksByte c icb i := by
  intro n
  induction n using Nat.strongRecOn with
  | _ n ih =>
    intro icb x hx
    rcases Nat.eq_zero_or_pos x.length with h | h
    · have : x = [] := List.length_eq_zero_iff.mp h
      subst this
      rw [gctr_nil]
      exact ⟨rfl, fun i hi => absurd hi (by simp)⟩
    · obtain ⟨l1, g1⟩ := ih (n - 1) (by omega) (inc32 icb) (x.drop 16) (by simp; omega)
      have hl : (xorBytes (x.take 16) (c icb)).length = min 16 x.length := by simp [xorBytes_length, hc]
      rw [gctr_cons _ _ _ (by omega)]
      refine ⟨by rw [List.length_append, hl, l1, List.length_drop]; omega, fun i hi => ?_⟩
      by_cases h16 : i < 16
      · rw [List.getD_append _ _ _ _ (by omega), xorBytes_getD _ _ _ (by simp; omega) (by rw [hc]; exact h16)]
        congr 1
        · rw [List.getD_eq_getElem _ _ (by simp; omega), List.getD_eq_getElem _ _ hi, List.getElem_take]
        · rw [ksByte, Nat.div_eq_of_lt h16, Nat.mod_eq_of_lt h16]; rfl
      · rw [List.getD_append_right _ _ _ _ (by omega), hl, Nat.min_eq_left (by omega), g1 _ (by simp; omega)]
        congr 1
        · rw [List.getD_eq_getElem _ _ (by simp; omega), List.getD_eq_getElem _ _ hi, List.getElem_drop]
          congr 1; omega
        · rw [ksByte, ksByte, ← Function.iterate_succ_apply, show ((i - 16) / 16).succ = i / 16 by omega, show (i - 16) % 16 = i % 16 by omega]

theorem gctr_length (E : M128 → M128) (icb x : List Byte) : (gctr (ciph E) icb x).length = x.length :=
  (gctr_spec _ (ciph_length E) _ icb x (Nat.le_refl _)).1

theorem gctr_getD (E : M128 → M128) (icb x : List Byte) (i : Nat) (hi : i < x.length) :
    (gctr (ciph E) icb x).getD i 0#8 = x.getD i 0#8 ^^^ ksByte (ciph E) icb i :=
  (gctr_spec _ (ciph_length E) _ icb x (Nat.le_refl _)).2 i hi

/-- Counter mode is its own inverse. -/
theorem gctr_gctr (E : M128 → M128) (icb x : List Byte) : gctr (ciph E) icb (gctr (ciph E) icb x) = x := by
  refine list_ext_getD 0#8 (by rw [gctr_length, gctr_length]) (fun i hi => ?_)
  rw [gctr_length, gctr_length] at hi
  rw [gctr_getD _ _ _ _ (by rw [gctr_length]; exact hi), gctr_getD _ _ _ _ hi, BitVec.xor_assoc, BitVec.xor_self, BitVec.xor_zero]

/-! ### tags -/

theorem unblock_len (x : BitVec 128) : (unblock x).length = 16 := by simp [unblock]

/-- `calculate_tag` -/
theorem gcmTag_spec (h : BitVec 128) (E : M128 → M128) (j c a : List Byte) :
    gcmTag h.reverse (reflect (E (loadBytes j))) c a =
      .ok (gctr (ciph E) j (unblock (ghash h (pad16 a ++ pad16 c ++ be64 (8 * a.length) ++ be64 (8 * c.length))))) := by
  have e : ∀ (h z : M128) (c a : List Byte), gcmTag h z c a =
    (gcmGhash h c a >>= fun tag => loadu tag 0 >>= fun t => Except.ok (storeu (reflect (reflect t ^^^ z)))) := fun _ _ _ _ => rfl
  rw [e, gcmGhash_spec, ok_bind, loadu_ok (by rw [unblock_len]), ok_bind, List.drop_zero, List.take_of_length_le (by rw [unblock_len]),
    reflect_xor, reflect_reflect, reflect_reflect, storeu_xor, storeu_load (unblock_len _), gctr_block _ _ _ (unblock_len _)]
  rfl

/-! ### memory -/

theorem overwrite_getD (dst src : List Byte) (off i : Nat) (h : off + src.length ≤ dst.length) :
    (overwrite dst off src).getD i 0#8 = if off ≤ i ∧ i < off + src.length then src.getD (i - off) 0#8 else dst.getD i 0#8 := by
  rw [overwrite]
  have h1 : (dst.take off).length = off := by simp; omega
  split
  · rename_i hi
    rw [List.append_assoc, List.getD_append_right _ _ _ _ (by omega), h1, List.getD_append _ _ _ _ (by omega)]
  · rename_i hi
    by_cases h2 : i < off
    · rw [List.append_assoc, List.getD_append _ _ _ _ (by omega), List.getD_eq_getElem _ _ (by omega), List.getElem_take,
        List.getD_eq_getElem _ _ (by omega)]
    · rw [List.getD_append_right _ _ _ _ (by rw [List.length_append]; omega), List.length_append, h1]
      simp only [List.getD_eq_getElem?_getD, List.getElem?_drop]
      rw [show off + src.length + (i - (off + src.length)) = i by omega]

theorem storeAt_spec (l : List Byte) (off : Nat) (v : M128) (h : off + 16 ≤ l.length) : ∃ r, storeAt l off v = .ok r ∧ r.length = l.length ∧
    ∀ i, r.getD i 0#8 = if off ≤ i ∧ i < off + 16 then byteOf v (i - off) else l.getD i 0#8 := by
  refine ⟨_, if_pos h, overwrite_length h, fun i => ?_⟩
  rw [overwrite_getD _ _ _ _ h, storeu_length]
  split
  · exact storeu_getD _ (by omega)
  · rfl

theorem set_getD (l : List Byte) (k i : Nat) (x : Byte) (hk : k < l.length) : (l.set k x).getD i 0#8 = if i = k then x else l.getD i 0#8 := by
  simp only [List.getD_eq_getElem?_getD, List.getElem?_set]
  by_cases h : k = i
  · subst h; simp [hk]
  · rw [if_neg h, if_neg (by omega)]

theorem xorInto_spec (dst src : List Byte) (off count : Nat) (hd : off + count ≤ dst.length) (hs : off + count ≤ src.length) :
    ∃ r, xorInto dst src off count = .ok r ∧ r.length = dst.length ∧
      ∀ i, r.getD i 0#8 = if off ≤ i ∧ i < off + count then dst.getD i 0#8 ^^^ src.getD i 0#8 else dst.getD i 0#8 := by
  obtain ⟨r, e, h1, h2⟩ := loop_inv (n := count) (s := dst) (body := fun dst k => do
    let a ← rd dst (off + k)
    let b ← rd src (off + k)
    wr dst (off + k) (a ^^^ b))
    (fun k r => r.length = dst.length ∧ ∀ i, r.getD i 0#8 = if off ≤ i ∧ i < off + k then dst.getD i 0#8 ^^^ src.getD i 0#8 else dst.getD i 0#8)
    ⟨rfl, fun i => by rw [if_neg (by omega)]⟩
    (fun k hk r ⟨h1, h2⟩ => ⟨_, by
      rw [rd_ok_getD 0#8 (by omega), ok_bind, rd_ok_getD 0#8 (by omega), ok_bind, wr_ok _ (by omega)], by rw [List.length_set]; exact h1, fun i => by
      rw [set_getD _ _ _ _ (by omega)]
      split
      · rename_i h; subst h
        rw [h2, if_neg (by omega), if_pos (by omega)]
      · rw [h2]
        split
        · rw [if_pos (by omega)]
        · rw [if_neg (by omega)]⟩)
  exact ⟨r, e, h1, h2⟩

theorem vecResize_shrink (v : List Byte) (n : Nat) (h : n ≤ v.length) : vecResize v n = v.take n := by
  rw [vecResize, Nat.sub_eq_zero_of_le h]; simp

theorem encLog_ok {S : Type} {C : Cipher S} {sched : S} {E : M128 → M128} (hE : ∀ b, C.encrypt sched b = .ok (E b)) (log : List M128) (b : M128) :
    encLog C sched log b = .ok (E b, log ++ [b]) := by
  rw [encLog, hE]; rfl

/-- The blocks given to the cipher by the counter mode loop. -/
def ctrLog (icb : List Byte) (n : Nat) : List M128 := (List.range n).map (fun k => loadBytes (inc32^[k] icb))

theorem ctrLog_succ (icb : List Byte) (n : Nat) : ctrLog icb (n + 1) = ctrLog icb n ++ [loadBytes (inc32^[n] icb)] := by
  simp [ctrLog, List.range_succ]

theorem byteOf_ciph (E : M128 → M128) (l : List Byte) {i : Nat} (hi : i < 16) : byteOf (E (loadBytes l)) i = (ciph E l).getD i 0#8 :=
  (storeu_getD _ hi).symm

theorem loadu16 {l : List Byte} (h : l.length = 16) : loadu l 0 = .ok (loadBytes l) := by
  rw [loadu_ok (by omega), List.drop_zero, List.take_of_length_le (by omega)]

/-! ### decryption -/

theorem decrypt_loop {S : Type} (C : Cipher S) (sched : S) (E : M128 → M128) (hE : ∀ b, C.encrypt sched b = .ok (E b)) (j x : List Byte)
    (hj : j.length = 16) (log : List M128) :
    ∃ ctr out, loop ((x.length + 16 - 1) / 16) (j, List.replicate ((x.length + 16 - 1) / 16 * 16) 0#8, log) (gcmDecBlock C sched x) =
      .ok (ctr, out, log ++ ctrLog (inc32 j) ((x.length + 16 - 1) / 16)) ∧ vecResize out x.length = gctr (ciph E) (inc32 j) x := by
  obtain ⟨⟨ctr, out, log'⟩, e, h1, h2, h3, h4⟩ := loop_inv (n := (x.length + 16 - 1) / 16)
    (s := (j, List.replicate ((x.length + 16 - 1) / 16 * 16) 0#8, log))
    (body := gcmDecBlock C sched x)
    (fun n s => s.1 = inc32^[n] j ∧ s.2.1.length = (x.length + 16 - 1) / 16 * 16 ∧ s.2.2 = log ++ ctrLog (inc32 j) n ∧
      ∀ i, i < n * 16 → i < x.length → s.2.1.getD i 0#8 = x.getD i 0#8 ^^^ ksByte (ciph E) (inc32 j) i)
    ⟨rfl, by simp, by simp [ctrLog], fun i hi => absurd hi (by omega)⟩
    (fun n hn ⟨ctr, out, log'⟩ ⟨h1, h2, h3, h4⟩ => by
      simp only at h1 h2 h3 h4
      have hinc : ctrInc ctr = inc32^[n] (inc32 j) := by
        rw [h1, ctrInc_spec (inc32_iter_length hj n), ← Function.iterate_succ_apply' inc32 n j, Function.iterate_succ_apply]
      have hlen : (inc32^[n] (inc32 j)).length = 16 := inc32_iter_length (inc32_length hj) n
      obtain ⟨o1, e1, l1, g1⟩ := storeAt_spec out (n * 16) (E (loadBytes (inc32^[n] (inc32 j)))) (by omega)
      obtain ⟨o2, e2, l2, g2⟩ := xorInto_spec o1 x (n * 16) (min (x.length - n * 16) 16) (by omega) (by omega)
      refine ⟨(inc32^[n] (inc32 j), o2, log' ++ [loadBytes (inc32^[n] (inc32 j))]), ?_, ?_, ?_, ?_, ?_⟩
      · simp only [gcmDecBlock, hinc, loadu16 hlen, ok_bind, encLog_ok hE, e1, e2]; rfl
      · exact (Function.iterate_succ_apply inc32 n j).symm
      · show o2.length = _
        omega
      · show log' ++ _ = _
        rw [h3, ctrLog_succ, List.append_assoc]
      · intro i hi hx
        show o2.getD i 0#8 = _
        rw [g2]
        by_cases hlow : i < n * 16
        · rw [if_neg (by omega), g1, if_neg (by omega)]
          exact h4 i hlow hx
        · rw [if_pos (by omega), g1, if_pos (by omega), byteOf_ciph _ _ (by omega), BitVec.xor_comm, ksByte]
          rw [show i / 16 = n by omega, show i % 16 = i - n * 16 by omega])
  simp only at h1 h2 h3 h4
  refine ⟨ctr, out, by rw [e, h3], ?_⟩
  have hle : x.length ≤ out.length := by omega
  rw [vecResize_shrink _ _ hle]
  refine list_ext_getD 0#8 (by rw [gctr_length, List.length_take]; omega) (fun i hi => ?_)
  rw [List.length_take] at hi
  rw [gctr_getD _ _ _ _ (by omega), ← h4 i (by omega) (by omega), List.getD_eq_getElem _ _ (by rw [List.length_take]; exact hi),
    List.getElem_take, List.getD_eq_getElem _ _ (by omega)]

/-! ### encryption -/

/-- State of the encryption loops after `n` blocks. -/
def EncAt (E : M128 → M128) (j x : List Byte) (log : List M128) (n : Nat) (s : List Byte × List Byte × List M128) : Prop :=
  s.1 = inc32^[n] j ∧ s.2.1.length = (x.length + 16 - 1) / 16 * 16 ∧ s.2.2 = log ++ ctrLog (inc32 j) n ∧
    ∀ i, i < n * 16 → s.2.1.getD i 0#8 = x.getD i 0#8 ^^^ ksByte (ciph E) (inc32 j) i

theorem encrypt_full {S : Type} (C : Cipher S) (sched : S) (E : M128 → M128) (hE : ∀ b, C.encrypt sched b = .ok (E b)) (j x : List Byte)
    (hj : j.length = 16) (log : List M128) (full : Nat) (hf : full * 16 ≤ x.length) :
    ∃ s, loop full (j, List.replicate ((x.length + 16 - 1) / 16 * 16) 0#8, log) (gcmEncBlock C sched x) = .ok s ∧ EncAt E j x log full s := by
  refine loop_inv (EncAt E j x log) ⟨rfl, by simp, by simp [ctrLog], fun i hi => absurd hi (by omega)⟩ ?_
  rintro n hn ⟨ctr, out, log'⟩ ⟨h1, h2, h3, h4⟩
  simp only at h1 h2 h3 h4
  have hinc : ctrInc ctr = inc32^[n] (inc32 j) := by
    rw [h1, ctrInc_spec (inc32_iter_length hj n), ← Function.iterate_succ_apply' inc32 n j, Function.iterate_succ_apply]
  have hlen : (inc32^[n] (inc32 j)).length = 16 := inc32_iter_length (inc32_length hj) n
  have hx : loadu x (n * 16) = .ok (loadBytes ((x.drop (n * 16)).take 16)) := loadu_ok (by omega)
  obtain ⟨o1, e1, l1, g1⟩ := storeAt_spec out (n * 16) (E (loadBytes (inc32^[n] (inc32 j))) ^^^ loadBytes ((x.drop (n * 16)).take 16)) (by omega)
  refine ⟨(inc32^[n] (inc32 j), o1, log' ++ [loadBytes (inc32^[n] (inc32 j))]), ?_, ?_, ?_, ?_, ?_⟩
  · simp only [gcmEncBlock, hinc, loadu16 hlen, ok_bind, encLog_ok hE, hx, e1]; rfl
  · exact (Function.iterate_succ_apply inc32 n j).symm
  · show o1.length = _
    omega
  · show log' ++ _ = _
    rw [h3, ctrLog_succ, List.append_assoc]
  · intro i hi
    show o1.getD i 0#8 = _
    rw [g1]
    by_cases hlow : i < n * 16
    · rw [if_neg (by omega)]
      exact h4 i hlow
    · rw [if_pos (by omega), byteOf_xor, byteOf_ciph _ _ (by omega), BitVec.xor_comm, ksByte, byteOf_load _ (by omega)]
      rw [show i / 16 = n by omega, show i % 16 = i - n * 16 by omega]
      congr 1
      rw [List.getD_eq_getElem _ _ (by simp; omega), List.getElem_take, List.getElem_drop, List.getD_eq_getElem _ _ (by omega)]
      congr 1; omega

theorem encrypt_last {S : Type} (C : Cipher S) (sched : S) (E : M128 → M128) (hE : ∀ b, C.encrypt sched b = .ok (E b)) (j x : List Byte)
    (hj : j.length = 16) (log : List M128) (full : Nat) (hf : full = (x.length + 16 - 1) / 16 - 1) (hx : x.length % 16 ≠ 0)
    (s : List Byte × List Byte × List M128) (hs : EncAt E j x log full s) :
    ∃ ctr, loop ((x.length + 16 - 1) / 16 - full) s (gcmEncLast C sched x full) =
      .ok (ctr, gctr (ciph E) (inc32 j) x, log ++ ctrLog (inc32 j) ((x.length + 16 - 1) / 16)) := by
  obtain ⟨ctr, out, log'⟩ := s
  obtain ⟨h1, h2, h3, h4⟩ := hs
  simp only at h1 h2 h3 h4
  have hb : (x.length + 16 - 1) / 16 = full + 1 := by omega
  rw [hb] at h2 ⊢
  rw [show full + 1 - full = 0 + 1 by omega]
  have hinc : ctrInc ctr = inc32^[full] (inc32 j) := by
    rw [h1, ctrInc_spec (inc32_iter_length hj full), ← Function.iterate_succ_apply' inc32 full j, Function.iterate_succ_apply]
  have hlen : (inc32^[full] (inc32 j)).length = 16 := inc32_iter_length (inc32_length hj) full
  obtain ⟨o1, e1, l1, g1⟩ := storeAt_spec out (full * 16) (E (loadBytes (inc32^[full] (inc32 j)))) (by omega)
  obtain ⟨o2, e2, l2, g2⟩ := xorInto_spec o1 x (full * 16) (min (x.length - full * 16) 16) (by omega) (by omega)
  refine ⟨inc32^[full] (inc32 j), ?_⟩
  have hr : vecResize o2 x.length = gctr (ciph E) (inc32 j) x := by
    rw [vecResize_shrink _ _ (by omega)]
    refine list_ext_getD 0#8 (by rw [gctr_length, List.length_take]; omega) (fun i hi => ?_)
    rw [List.length_take] at hi
    rw [gctr_getD _ _ _ _ (by omega), List.getD_eq_getElem _ _ (by rw [List.length_take]; exact hi),
      List.getElem_take, ← List.getD_eq_getElem _ 0#8 (by omega), g2]
    by_cases hlow : i < full * 16
    · rw [if_neg (by omega), g1, if_neg (by omega)]
      exact h4 i hlow
    · rw [if_pos (by omega), g1, if_pos (by omega), byteOf_ciph _ _ (by omega), BitVec.xor_comm, ksByte]
      rw [show i / 16 = full by omega, show i % 16 = i - full * 16 by omega]
  rw [loop, loop]
  show gcmEncLast C sched x full (ctr, out, log') 0 = _
  simp only [gcmEncLast, Nat.add_zero, hinc, loadu16 hlen, ok_bind, encLog_ok hE, e1, e2, hr, h3, ctrLog_succ, List.append_assoc]
  rfl

theorem encrypt_whole (E : M128 → M128) (j x : List Byte) (log : List M128) (hx : x.length % 16 = 0)
    (s : List Byte × List Byte × List M128) (hs : EncAt E j x log ((x.length + 16 - 1) / 16) s) : s.2.1 = gctr (ciph E) (inc32 j) x := by
  obtain ⟨h1, h2, h3, h4⟩ := hs
  refine list_ext_getD 0#8 (by rw [gctr_length]; omega) (fun i hi => ?_)
  rw [gctr_getD _ _ _ _ (by omega)]
  exact h4 i (by omega)

/-! ### whole messages -/

/-- The object after a message with counter block `j` and `n` bytes. -/
def gcmNext {S : Type} (E : M128 → M128) (g : Gcm S) (j : List Byte) (n : Nat) : Gcm S :=
  { g with z := reflect (E (loadBytes j)), counter := g.counter + 1#64, log := g.log ++ loadBytes j :: ctrLog (inc32 j) ((n + 16 - 1) / 16) }

theorem gcmEncrypt_spec {S : Type} (C : Cipher S) (g : Gcm S) (E : M128 → M128) (hE : ∀ b, C.encrypt g.sched b = .ok (E b))
    (hh : g.h = (subkey (ciph E)).reverse) (hiv : 12 ≤ g.iv.length) (j : List Byte) (hj : j.length = 16) (hs : ctrStart g.iv g.counter = .ok j)
    (p a : List Byte) : gcmEncrypt C g p a = .ok (aeJ (ciph E) j p a, gcmNext E g j p.length) := by
  rw [gcmEncrypt, if_neg (by omega)]
  by_cases hp : p.length % 16 = 0
  · have hlp : (p.length != (p.length + 16 - 1) / 16 * 16) = false := by
      rw [bne_eq_false_iff_eq]; omega
    obtain ⟨⟨ctr, out, log⟩, e, h⟩ := encrypt_full C g.sched E hE j p hj (g.log ++ [loadBytes j]) ((p.length + 16 - 1) / 16) (by omega)
    have ho := encrypt_whole E j p _ hp _ h
    obtain ⟨h1, h2, h3, h4⟩ := h
    simp only at ho h3
    simp only [hs, ok_bind, loadu16 hj, encLog_ok hE, hlp, Bool.false_eq_true, if_false, e, Nat.sub_self, loop, ho, h3, hh, gcmTag_spec]
    show Except.ok _ = _
    rw [aeJ, gcmNext, hh]
    simp only [List.append_assoc, List.singleton_append]
  · have hlp : (p.length != (p.length + 16 - 1) / 16 * 16) = true := by
      rw [bne_iff_ne]; omega
    obtain ⟨s, e, h⟩ := encrypt_full C g.sched E hE j p hj (g.log ++ [loadBytes j]) ((p.length + 16 - 1) / 16 - 1) (by omega)
    obtain ⟨ctr, e2⟩ := encrypt_last C g.sched E hE j p hj (g.log ++ [loadBytes j]) _ rfl hp s h
    simp only [hs, ok_bind, loadu16 hj, encLog_ok hE, hlp, if_true, e]
    simp only [e2, ok_bind, hh, gcmTag_spec]
    show Except.ok _ = _
    rw [aeJ, gcmNext, hh]
    simp only [List.append_assoc, List.singleton_append]

theorem gcmDecrypt_spec {S : Type} (C : Cipher S) (g : Gcm S) (E : M128 → M128) (hE : ∀ b, C.encrypt g.sched b = .ok (E b))
    (hh : g.h = (subkey (ciph E)).reverse) (hiv : 12 ≤ g.iv.length) (j : List Byte) (hj : j.length = 16) (hs : ctrStart g.iv g.counter = .ok j)
    (c a t : List Byte) : gcmDecrypt C g c a t = .ok ((gctr (ciph E) (inc32 j) c,
      decide (gctr (ciph E) j (unblock (ghash (subkey (ciph E)) (pad16 a ++ pad16 c ++ be64 (8 * a.length) ++ be64 (8 * c.length)))) = t)),
      gcmNext E g j c.length) := by
  rw [gcmDecrypt, if_neg (by omega)]
  obtain ⟨ctr, out, e, h⟩ := decrypt_loop C g.sched E hE j c hj (g.log ++ [loadBytes j])
  have h8 : decide (g.iv.length ≥ 8) = true := decide_eq_true (by omega)
  simp only [hs, ok_bind, loadu16 hj, encLog_ok hE, e, h, hh, gcmTag_spec, h8, Bool.true_and]
  show Except.ok _ = _
  rw [gcmNext, hh]
  simp only [List.append_assoc, List.singleton_append]

/-! ### starting a message -/

theorem xorCounter_spec {l : List Byte} (h : l.length = 16) (c : U64) :
    xorCounter l c = xorBytes l (List.replicate 4 0#8 ++ be64 c.toNat ++ List.replicate 4 0#8) := by
  obtain ⟨a0, a1, a2, a3, a4, a5, a6, a7, a8, a9, a10, a11, a12, a13, a14, a15, rfl⟩ := length16 h
  have e : ∀ i, i ≤ 7 → ((c >>> (8 * i)) &&& 0xFF#64).setWidth 8 = BitVec.ofNat 8 (c.toNat / 256 ^ i) := fun i hi => byte_and c i hi
  have e0 := e 0 (by omega); have e1 := e 1 (by omega); have e2 := e 2 (by omega); have e3 := e 3 (by omega)
  have e4 := e 4 (by omega); have e5 := e 5 (by omega); have e6 := e 6 (by omega); have e7 := e 7 (by omega)
  simp only [Nat.reduceMul] at e0 e1 e2 e3 e4 e5 e6 e7
  simp only [xorCounter, List.range, List.range.loop, List.foldl, List.set, List.getD_cons_succ, List.getD_cons_zero, Nat.reduceMul, Nat.reduceSub,
    Nat.reduceAdd, be64, List.map, List.replicate, List.cons_append, List.nil_append, xorBytes, List.zipWith, e0, e1, e2, e3, e4, e5, e6, e7,
    BitVec.xor_zero]

theorem overwrite_full (dst src : List Byte) (h : src.length = dst.length) : overwrite dst 0 src = src := by
  rw [overwrite, List.take_zero, List.nil_append, Nat.zero_add, List.drop_of_length_le (by omega), List.append_nil]

theorem ctrStart_16 {iv : List Byte} (h : iv.length = 16) (c : U64) :
    ctrStart iv c = .ok (xorBytes iv (List.replicate 4 0#8 ++ be64 c.toNat ++ List.replicate 4 0#8)) := by
  rw [ctrStart, if_pos (by omega)]
  simp only [overwrite_full _ _ (show iv.length = (List.replicate 16 0#8).length by simp [h])]
  rw [if_neg (by omega), xorCounter_spec h]

theorem be64_length (n : Nat) : (be64 n).length = 8 := by simp [be64]

theorem recordNonce_length {iv : List Byte} (h : iv.length = 12) (n : Nat) : (recordNonce iv n).length = 12 := by
  simp [recordNonce, xorBytes_length, be64_length, h]

theorem ctrStart_12 {iv : List Byte} (h : iv.length = 12) (c : U64) :
    ctrStart iv c = .ok (recordNonce iv c.toNat ++ [0#8, 0#8, 0#8, 1#8]) := by
  rw [ctrStart, if_pos (by omega)]
  have h1 : overwrite (List.replicate 16 0#8) 0 iv = iv ++ List.replicate 4 0#8 := by
    rw [overwrite, h]; rfl
  simp only [h1]
  rw [if_pos h, xorCounter_spec (by simp [h]), recordNonce, h]
  have h2 : (xorBytes iv (List.replicate (12 - 8) 0#8 ++ be64 c.toNat)).length = 12 := by simp [xorBytes_length, be64_length, h]
  have h3 : xorBytes (iv ++ List.replicate 4 0#8) (List.replicate 4 0#8 ++ be64 c.toNat ++ List.replicate 4 0#8) =
      xorBytes iv (List.replicate (12 - 8) 0#8 ++ be64 c.toNat) ++ [0#8, 0#8, 0#8, 0#8] := by
    rw [xorBytes, List.zipWith_append (by simp [be64_length, h])]; rfl
  rw [h3]
  generalize xorBytes iv (List.replicate (12 - 8) 0#8 ++ be64 c.toNat) = l at h2
  match l, h2 with
  | [a0, a1, a2, a3, a4, a5, a6, a7, a8, a9, a10, a11], _ => rfl

/-! ### the constructor -/

theorem gcmNew_h {S : Type} (C : Cipher S) (sched : S) (E : M128 → M128) (hE : ∀ b, C.encrypt sched b = .ok (E b)) :
    reflect (E 0#128) = (subkey (ciph E)).reverse := by
  have h0 : loadBytes (List.replicate 16 0#8) = 0#128 := by decide +kernel
  rw [subkey, ← reflect_load _ (ciph_length _ _), ciph, load_storeu, h0]

/-- The IV kept by the constructor. -/
def keptIv (E : M128 → M128) (iv : List Byte) : List Byte := if iv.length = 8 ∨ 12 < iv.length then j0 (ciph E) iv else iv

theorem gcmNew_spec {S : Type} (C : Cipher S) (sched : S) (E : M128 → M128) (key : List Byte) (hk : C.schedule key = .ok sched)
    (hE : ∀ b, C.encrypt sched b = .ok (E b)) (z0 : M128) (iv : List Byte) :
    gcmNew C z0 key iv = .ok { sched := sched, h := (subkey (ciph E)).reverse, z := z0, counter := 0#64, iv := keptIv E iv, log := [0#128] } := by
  rw [gcmNew, hk, ok_bind, hE, ok_bind, gcmNew_h C sched E hE, keptIv]
  split
  · have e1 : pad16 [] ++ pad16 iv ++ be64 (8 * ([] : List Byte).length) ++ be64 (8 * iv.length) =
        pad16 iv ++ List.replicate 8 0#8 ++ be64 (8 * iv.length) := by
      congr 1
    simp only [gcmGhash_spec, ok_bind, e1]
    rw [j0, if_neg (by omega)]
    rfl
  · rfl

theorem keptIv_length (E : M128 → M128) (iv : List Byte) : (keptIv E iv).length < 12 ∨ (keptIv E iv).length = 12 ∨ (keptIv E iv).length = 16 := by
  rw [keptIv]
  split
  · right; right
    rw [j0, if_neg (by omega), unblock_len]
  · omega

end Verif.Proof
