import Verif.Model.LeakHash
import Verif.Proof.Leak

/-! The hash functions, HMAC, HKDF and ChaCha20 with events and checked array accesses compute what the functions without events compute. -/

namespace Verif.Proof

open Verif.Model

/-! ### arrays and loops -/

theorem rdL_in {α : Type} {v : List α} {i : Nat} (d : α) (h : i < v.length) : (rdL v i).res = .ok (v.getD i d) := by rw [res_rd, rd_ok_getD d h]
theorem wrL_in {α : Type} {v : List α} {i : Nat} (x : α) (h : i < v.length) : (wrL v i x).res = .ok (v.set i x) := by rw [res_wr, wr_ok x h]

theorem rd_bind {α β : Type} {v : List α} {i : Nat} (d : α) (h : i < v.length) (f : α → Leak β) : (rdL v i >>= f).res = (f (v.getD i d)).res := by
  rw [res_bind, rdL_in d h, ok_bind]

theorem wr_bind {α β : Type} {v : List α} {i : Nat} {x : α} (h : i < v.length) (f : List α → Leak β) : (wrL v i x >>= f).res = (f (v.set i x)).res := by
  rw [res_bind, wrL_in x h, ok_bind]

theorem res_ok_bind {α β : Type} {x : Leak α} {a : α} (h : x.res = .ok a) (f : α → Leak β) : (x >>= f).res = (f a).res := by
  rw [res_bind, h, ok_bind]

theorem emit_bind {β : Type} (o : Obs) (f : Unit → Leak β) : (emit o >>= f).res = (f ()).res := res_ok_bind (res_emit o) f
theorem res_touch (n : Nat) : (touch n).res = .ok () := rfl

/-- A loop whose passes all succeed is a fold. -/
theorem loopL_fold {σ : Type} {n : Nat} {s : σ} {body : σ → Nat → Leak σ} (f : σ → Nat → σ) (P : σ → Prop) (h0 : P s)
    (h : ∀ i, i < n → ∀ s, P s → (body s i).res = .ok (f s i) ∧ P (f s i)) : (loopL n s body).res = .ok ((List.range n).foldl f s) ∧ P ((List.range n).foldl f s) := by
  rw [res_loop]
  obtain ⟨t, h1, h2, h3⟩ := loop_inv (s := s) (n := n) (body := fun s i => (body s i).res) (fun k t => t = (List.range k).foldl f s ∧ P t) ⟨rfl, h0⟩ fun i hi t ⟨e, ht⟩ => by
    obtain ⟨h1, h2⟩ := h i hi t ht
    refine ⟨f t i, h1, ?_, h2⟩
    rw [List.range_succ, List.foldl_append, ← e]; rfl
  rw [h1, ← h2]
  exact ⟨rfl, h3⟩

theorem take_set_self {α : Type} (l : List α) (m : Nat) (x : α) (h : m < l.length) : (l.set m x).take (m + 1) = l.take m ++ [x] := by
  rw [List.take_succ_eq_append_getElem (by rw [List.length_set]; exact h), List.getElem_set_self, List.take_set_of_le (Nat.le_refl m)]

/-- A loop that fills an array from the index `a` on: the elements below are kept, what was in the array above does not matter. -/
theorem loopL_fill {α : Type} {N a n : Nat} {W : List α} {body : List α → Nat → Leak (List α)} (f : List α → Nat → α) (hf : ∀ W t, a ≤ t → f W t = f (W.take t) t)
    (hN : W.length = N) (ha : a + n ≤ N) (hb : ∀ W k, W.length = N → k < n → (body W k).res = .ok (W.set (a + k) (f W (a + k)))) :
    ∃ W', (loopL n W body).res = .ok W' ∧ W'.length = N ∧ W'.take (a + n) = (List.range' a n).foldl (fun P t => P ++ [f P t]) (W.take a) := by
  rw [res_loop]
  obtain ⟨t, h1, h2, h3⟩ := loop_inv (s := W) (n := n) (body := fun s i => (body s i).res)
    (fun k t => t.length = N ∧ t.take (a + k) = (List.range' a k).foldl (fun P t => P ++ [f P t]) (W.take a)) ⟨hN, rfl⟩ fun i hi t ⟨hl, e⟩ => by
    refine ⟨_, hb t i hl hi, by rw [List.length_set, hl], ?_⟩
    rw [← Nat.add_assoc, take_set_self _ _ _ (by omega), List.range'_1_concat, List.foldl_append, ← e, hf t (a + i) (by omega)]
    rfl
  exact ⟨t, h1, h2, h3⟩

theorem foldl_push {α β : Type} (g : β → α) (l : List β) : ∀ P : List α, l.foldl (fun P t => P ++ [g t]) P = P ++ l.map g := by
  induction l with
  | nil => intro P; exact (List.append_nil P).symm
  | cons b l ih => intro P; rw [List.foldl_cons, ih, List.append_assoc]; rfl

/-- A loop that fills an array with values that do not depend on it. -/
theorem loopL_map {α : Type} {N n : Nat} {W : List α} {body : List α → Nat → Leak (List α)} (g : Nat → α) (hN : W.length = N) (hn : n ≤ N)
    (hb : ∀ W k, W.length = N → k < n → (body W k).res = .ok (W.set k (g k))) :
    ∃ W', (loopL n W body).res = .ok W' ∧ W'.length = N ∧ W'.take n = (List.range n).map g := by
  obtain ⟨W', h1, h2, h3⟩ := loopL_fill (a := 0) (n := n) (W := W) (body := body) (fun _ t => g t) (fun _ _ _ => rfl) hN (by omega)
    (fun W k h hk => by rw [Nat.zero_add]; exact hb W k h hk)
  refine ⟨W', h1, h2, ?_⟩
  rw [Nat.zero_add, foldl_push, List.take_zero, List.nil_append, ← List.range_eq_range'] at h3
  exact h3

theorem getD_take {α : Type} (W : List α) (t i : Nat) (d : α) (h : i < t) : (W.take t).getD i d = W.getD i d := by
  rw [List.getD_eq_getElem?_getD, List.getD_eq_getElem?_getD, List.getElem?_take_of_lt h]

/-! ### the compression functions -/

theorem res_md5Step (chunk : List Byte) (hc : chunk.length = 64) (st : Md5H) (i : Nat) (hi : i < 64) : (md5StepL chunk st i).res = .ok (md5Step chunk i st) := by
  unfold md5StepL
  rw [emit_bind, emit_bind, emit_bind]
  dsimp only
  have hg : (if i < 16 then i else if i < 32 then (5 * i + 1) % 16 else if i < 48 then (3 * i + 5) % 16 else (7 * i) % 16) < 16 := by
    split
    · assumption
    · split
      · omega
      · split <;> omega
  generalize (if i < 16 then i else if i < 32 then (5 * i + 1) % 16 else if i < 48 then (3 * i + 5) % 16 else (7 * i) % 16) = g at hg
  rw [rd_bind 0#8 (by omega), rd_bind 0#8 (by omega), rd_bind 0#8 (by omega), rd_bind 0#8 (by omega), rd_bind 0#32 (show i < md5K.length from hi),
    rd_bind 0 (show i < md5s.length from hi)]
  rfl

theorem res_md5Compress (h : Md5H) (chunk : List Byte) (hc : chunk.length = 64) : (md5CompressL h chunk).res = .ok (md5Compress h chunk) := by
  rw [md5CompressL, res_ok_bind (res_touch 4),
    res_ok_bind (loopL_fold (fun st i => md5Step chunk i st) (fun _ => True) trivial fun i hi st _ => ⟨res_md5Step chunk hc st i hi, trivial⟩).1]
  rfl

theorem res_sha1W (junk : List U32) (hj : junk.length = 80) (chunk : List Byte) (hc : chunk.length = 64) : (sha1WL junk chunk).res = .ok (sha1W chunk) ∧ (sha1W chunk).length = 80 := by
  rw [sha1WL]
  obtain ⟨w, h1, h2, h3⟩ := loopL_map (n := 16) (W := junk) (N := 80)
    (body := fun w n => do
      let v ← loopL 4 0#32 (fun v i => do
        let x ← rdL chunk (4 * n + i)
        return (v <<< 8) ||| x.setWidth 32)
      wrL w n v)
    (fun n => (List.range 4).foldl (fun (v : U32) i => (v <<< 8) ||| byte32 chunk (4 * n + i)) 0#32) hj (by omega) fun W k hW hk => by
      rw [res_ok_bind (loopL_fold (fun (v : U32) i => (v <<< 8) ||| byte32 chunk (4 * k + i)) (fun _ => True) trivial fun i hi v _ =>
        ⟨by rw [rd_bind 0#8 (by omega)]; rfl, trivial⟩).1]
      exact wrL_in _ (by omega)
  rw [res_ok_bind h1]
  obtain ⟨W, h4, h5, h6⟩ := loopL_fill (a := 16) (n := 64) (W := w) (N := 80)
    (body := fun w n => do
      let a ← rdL w (16 + n - 3)
      let b ← rdL w (16 + n - 8)
      let c ← rdL w (16 + n - 14)
      let d ← rdL w (16 + n - 16)
      wrL w (16 + n) (rotate (a ^^^ b ^^^ c ^^^ d) 1))
    (fun w i => rotate (w.getD (i - 3) 0#32 ^^^ w.getD (i - 8) 0#32 ^^^ w.getD (i - 14) 0#32 ^^^ w.getD (i - 16) 0#32) 1)
    (fun W t ht => by rw [getD_take _ _ _ _ (by omega), getD_take _ _ _ _ (by omega), getD_take _ _ _ _ (by omega), getD_take _ _ _ _ (by omega)]) h2 (by omega)
    (fun W k hW hk => by
      rw [rd_bind 0#32 (by omega), rd_bind 0#32 (by omega), rd_bind 0#32 (by omega), rd_bind 0#32 (by omega)]
      exact wrL_in _ (by omega))
  rw [List.take_of_length_le (by omega), h3] at h6
  rw [h4]
  exact ⟨congrArg Except.ok h6, by rw [← h5, h6]; rfl⟩

theorem res_sha1Compress (junk : List U32) (hj : junk.length = 80) (h : Sha1H) (chunk : List Byte) (hc : chunk.length = 64) :
    (sha1CompressL junk h chunk).res = .ok (sha1Compress h chunk) := by
  obtain ⟨h1, hl⟩ := res_sha1W junk hj chunk hc
  rw [sha1CompressL, res_ok_bind h1, res_ok_bind (res_touch 5),
    res_ok_bind (loopL_fold (sha1Step (sha1W chunk)) (fun _ => True) trivial fun i hi st _ => ⟨by rw [rd_bind 0#32 (by omega)]; rfl, trivial⟩).1]
  rfl

theorem res_sha256W (junk : List U32) (hj : junk.length = 64) (chunk : List Byte) (hc : chunk.length = 64) :
    (sha256WL junk chunk).res = .ok (sha256W chunk) ∧ (sha256W chunk).length = 64 := by
  rw [sha256WL]
  obtain ⟨w, h1, h2, h3⟩ := loopL_map (n := 16) (W := junk) (N := 64)
    (body := fun W t => do
      let a ← rdL chunk (t * 4)
      let b ← rdL chunk (t * 4 + 1)
      let c ← rdL chunk (t * 4 + 2)
      let d ← rdL chunk (t * 4 + 3)
      wrL W t ((a.setWidth 32 <<< 24) + (b.setWidth 32 <<< 16) + (c.setWidth 32 <<< 8) + d.setWidth 32))
    (fun t => (byte32 chunk (t * 4) <<< 24) + (byte32 chunk (t * 4 + 1) <<< 16) + (byte32 chunk (t * 4 + 2) <<< 8) +
        byte32 chunk (t * 4 + 3)) hj (by omega) fun W k hW hk => by
      rw [rd_bind 0#8 (by omega), rd_bind 0#8 (by omega), rd_bind 0#8 (by omega), rd_bind 0#8 (by omega)]
      exact wrL_in _ (by omega)
  rw [res_ok_bind h1]
  obtain ⟨W, h4, h5, h6⟩ := loopL_fill (a := 16) (n := 48) (W := w) (N := 64)
    (body := fun W n => do
      let a ← rdL W (16 + n - 2)
      let b ← rdL W (16 + n - 15)
      let c ← rdL W (16 + n - 7)
      let d ← rdL W (16 + n - 16)
      wrL W (16 + n) ((rotr32 a 17 ^^^ rotr32 a 19 ^^^ (a >>> 10)) + (rotr32 b 7 ^^^ rotr32 b 18 ^^^ (b >>> 3)) + c + d))
    (fun W t => (rotr32 (W.getD (t - 2) 0#32) 17 ^^^ rotr32 (W.getD (t - 2) 0#32) 19 ^^^ (W.getD (t - 2) 0#32 >>> 10)) +
      (rotr32 (W.getD (t - 15) 0#32) 7 ^^^ rotr32 (W.getD (t - 15) 0#32) 18 ^^^ (W.getD (t - 15) 0#32 >>> 3)) +
      W.getD (t - 7) 0#32 + W.getD (t - 16) 0#32)
    (fun W t ht => by rw [getD_take _ _ _ _ (by omega), getD_take _ _ _ _ (by omega), getD_take _ _ _ _ (by omega), getD_take _ _ _ _ (by omega)]) h2 (by omega)
    (fun W k hW hk => by
      rw [rd_bind 0#32 (by omega), rd_bind 0#32 (by omega), rd_bind 0#32 (by omega), rd_bind 0#32 (by omega)]
      exact wrL_in _ (by omega))
  rw [List.take_of_length_le (by omega), h3] at h6
  rw [h4]
  exact ⟨congrArg Except.ok h6, by rw [← h5, h6]; rfl⟩

theorem res_sha256Compress (junk : List U32) (hj : junk.length = 64) (w : Sha2H 32) (chunk : List Byte) (hc : chunk.length = 64) :
    (sha256CompressL junk w chunk).res = .ok (sha256Compress w chunk) := by
  obtain ⟨h1, hl⟩ := res_sha256W junk hj chunk hc
  rw [sha256CompressL, res_ok_bind h1, res_ok_bind (res_touch 8),
    res_ok_bind (loopL_fold (sha256Step (sha256W chunk)) (fun _ => True) trivial fun i hi st _ =>
      ⟨by rw [rd_bind 0#32 (show i < K256.length from hi), rd_bind 0#32 (by omega)]; rfl, trivial⟩).1]
  rfl

theorem res_sha512W (junk : List U64) (hj : junk.length = 80) (chunk : List Byte) (hc : chunk.length = 128) :
    (sha512WL junk chunk).res = .ok (sha512W chunk) ∧ (sha512W chunk).length = 80 := by
  rw [sha512WL]
  obtain ⟨w, h1, h2, h3⟩ := loopL_map (n := 16) (W := junk) (N := 80)
    (body := fun W t => do
      let a ← rdL chunk (t * 8)
      let b ← rdL chunk (t * 8 + 1)
      let c ← rdL chunk (t * 8 + 2)
      let d ← rdL chunk (t * 8 + 3)
      let e ← rdL chunk (t * 8 + 4)
      let f ← rdL chunk (t * 8 + 5)
      let g ← rdL chunk (t * 8 + 6)
      let h ← rdL chunk (t * 8 + 7)
      wrL W t ((a.setWidth 64 <<< 56) + (b.setWidth 64 <<< 48) + (c.setWidth 64 <<< 40) + (d.setWidth 64 <<< 32) + (e.setWidth 64 <<< 24) +
        (f.setWidth 64 <<< 16) + (g.setWidth 64 <<< 8) + (h.setWidth 64 <<< 0)))
    (fun t => (byte64 chunk (t * 8) <<< 56) + (byte64 chunk (t * 8 + 1) <<< 48) + (byte64 chunk (t * 8 + 2) <<< 40) +
      (byte64 chunk (t * 8 + 3) <<< 32) + (byte64 chunk (t * 8 + 4) <<< 24) + (byte64 chunk (t * 8 + 5) <<< 16) +
      (byte64 chunk (t * 8 + 6) <<< 8) + (byte64 chunk (t * 8 + 7) <<< 0)) hj (by omega) fun W k hW hk => by
      rw [rd_bind 0#8 (by omega), rd_bind 0#8 (by omega), rd_bind 0#8 (by omega), rd_bind 0#8 (by omega), rd_bind 0#8 (by omega), rd_bind 0#8 (by omega), rd_bind 0#8 (by omega), rd_bind 0#8 (by omega)]
      exact wrL_in _ (by omega)
  rw [res_ok_bind h1]
  obtain ⟨W, h4, h5, h6⟩ := loopL_fill (a := 16) (n := 64) (W := w) (N := 80)
    (body := fun W n => do
      let a ← rdL W (16 + n - 2)
      let b ← rdL W (16 + n - 15)
      let c ← rdL W (16 + n - 7)
      let d ← rdL W (16 + n - 16)
      wrL W (16 + n) ((rotr64 a 19 ^^^ rotr64 a 61 ^^^ (a >>> 6)) + (rotr64 b 1 ^^^ rotr64 b 8 ^^^ (b >>> 7)) + c + d))
    (fun W t => (rotr64 (W.getD (t - 2) 0#64) 19 ^^^ rotr64 (W.getD (t - 2) 0#64) 61 ^^^ (W.getD (t - 2) 0#64 >>> 6)) +
      (rotr64 (W.getD (t - 15) 0#64) 1 ^^^ rotr64 (W.getD (t - 15) 0#64) 8 ^^^ (W.getD (t - 15) 0#64 >>> 7)) +
      W.getD (t - 7) 0#64 + W.getD (t - 16) 0#64)
    (fun W t ht => by rw [getD_take _ _ _ _ (by omega), getD_take _ _ _ _ (by omega), getD_take _ _ _ _ (by omega), getD_take _ _ _ _ (by omega)]) h2 (by omega)
    (fun W k hW hk => by
      rw [rd_bind 0#64 (by omega), rd_bind 0#64 (by omega), rd_bind 0#64 (by omega), rd_bind 0#64 (by omega)]
      exact wrL_in _ (by omega))
  rw [List.take_of_length_le (by omega), h3] at h6
  rw [h4]
  exact ⟨congrArg Except.ok h6, by rw [← h5, h6]; rfl⟩

theorem res_sha512Compress (junk : List U64) (hj : junk.length = 80) (w : Sha2H 64) (chunk : List Byte) (hc : chunk.length = 128) :
    (sha512CompressL junk w chunk).res = .ok (sha512Compress w chunk) := by
  obtain ⟨h1, hl⟩ := res_sha512W junk hj chunk hc
  rw [sha512CompressL, res_ok_bind h1, res_ok_bind (res_touch 8),
    res_ok_bind (loopL_fold (sha512Step (sha512W chunk)) (fun _ => True) trivial fun i hi st _ =>
      ⟨by rw [rd_bind 0#64 (show i < K512.length from hi), rd_bind 0#64 (by omega)]; rfl, trivial⟩).1]
  rfl

/-! ### the block hash classes -/

/-- The class with events computes what the class without events computes. -/
structure Erases {A : BlockAlg} (L : BlockAlgL A) : Prop where
  compress : ∀ h chunk, chunk.length = A.B → (L.compress h chunk).res = .ok (A.compress h chunk)
  out : ∀ h, (L.out h).res = .ok (A.out h)

theorem res_outLoops (words size : Nat) : (outLoopsL words size).res = .ok () := by
  rw [outLoopsL]
  refine (loopL_fold (fun _ _ => ()) (fun _ => True) trivial fun i _ s _ => ⟨?_, trivial⟩).1
  exact (loopL_fold (fun _ _ => ()) (fun _ => True) trivial fun j _ s _ => ⟨rfl, trivial⟩).1

theorem md5_erases : Erases md5L := ⟨res_md5Compress, fun h => by show (outLoopsL 4 4 >>= _).res = _; rw [res_ok_bind (res_outLoops 4 4)]; rfl⟩
theorem sha1_erases {junk : List U32} (hj : junk.length = 80) : Erases (sha1L junk) :=
  ⟨res_sha1Compress junk hj, fun h => by show (outLoopsL 5 4 >>= _).res = _; rw [res_ok_bind (res_outLoops 5 4)]; rfl⟩
theorem sha224_erases {junk : List U32} (hj : junk.length = 64) : Erases (sha224L junk) :=
  ⟨res_sha256Compress junk hj, fun h => by show (outLoopsL 8 4 >>= _).res = _; rw [res_ok_bind (res_outLoops 8 4)]; rfl⟩
theorem sha256_erases {junk : List U32} (hj : junk.length = 64) : Erases (sha256L junk) :=
  ⟨res_sha256Compress junk hj, fun h => by show (outLoopsL 8 4 >>= _).res = _; rw [res_ok_bind (res_outLoops 8 4)]; rfl⟩
theorem sha384_erases {junk : List U64} (hj : junk.length = 80) : Erases (sha384L junk) :=
  ⟨res_sha512Compress junk hj, fun h => by show (outLoopsL 8 8 >>= _).res = _; rw [res_ok_bind (res_outLoops 8 8)]; rfl⟩
theorem sha512_erases {junk : List U64} (hj : junk.length = 80) : Erases (sha512L junk) :=
  ⟨res_sha512Compress junk hj, fun h => by show (outLoopsL 8 8 >>= _).res = _; rw [res_ok_bind (res_outLoops 8 8)]; rfl⟩

theorem copyL_in {dst src : List Byte} {off : Nat} (h : off + src.length ≤ dst.length) : (copyL dst off src).res = .ok (overwrite dst off src) := by
  show (if off + src.length ≤ dst.length then _ else _) = _
  rw [if_pos h]

section
variable {A : BlockAlg} {L : BlockAlgL A}

theorem res_blockLoop (E : Erases L) : ∀ (n : Nat) (rest : List Byte), rest.length = n → ∀ s : BlockState A, s.chunk.length = A.B →
    (blockLoopL L s rest).res = .ok (s.addLoop rest) ∧ (s.addLoop rest).chunk.length = A.B := by
  intro n
  induction n using Nat.strong_induction_on with
  | _ n ih =>
    intro rest hn s hs
    have hB := A.Bpos
    rw [blockLoopL, BlockState.addLoop]
    by_cases h : A.B ≤ rest.length
    · have ht : (rest.take A.B).length = A.B := by rw [List.length_take]; omega
      have hl : (overwrite s.chunk 0 (rest.take A.B)).length = A.B := by rw [overwrite_length (by omega), hs]
      rw [if_pos h, if_pos h, emit_bind, res_ok_bind (copyL_in (by omega)), res_ok_bind (E.compress _ _ hl)]
      exact ih (rest.drop A.B).length (by rw [List.length_drop]; omega) _ rfl ⟨_, _, _⟩ hl
    · rw [if_neg h, if_neg h, emit_bind, emit_bind]
      by_cases h0 : rest.length ≠ 0
      · rw [if_pos h0, if_pos h0, res_ok_bind (copyL_in (by omega))]
        exact ⟨rfl, by show (overwrite s.chunk 0 rest).length = _; rw [overwrite_length (by omega), hs]⟩
      · rw [if_neg h0, if_neg h0]
        exact ⟨rfl, hs⟩

theorem res_blockAdd (E : Erases L) (s : BlockState A) (hs : s.chunk.length = A.B) (data : List Byte) :
    (blockAddL L s data).res = .ok (s.add data) ∧ (s.add data).chunk.length = A.B := by
  have hB := A.Bpos
  have hm := Nat.mod_lt s.msglength.toNat hB
  rw [blockAddL, BlockState.add]
  dsimp only
  rw [emit_bind]
  generalize s.msglength.toNat % A.B = offset at hm
  by_cases h : offset ≠ 0
  · rw [if_pos h, if_pos h, emit_bind]
    have ht : (data.take (min data.length (A.B - offset))).length = min data.length (A.B - offset) := by rw [List.length_take]; omega
    have hl : (overwrite s.chunk offset (data.take (min data.length (A.B - offset)))).length = A.B := by rw [overwrite_length (by omega), hs]
    rw [res_ok_bind (copyL_in (by omega)), emit_bind]
    by_cases h1 : offset + min data.length (A.B - offset) ≠ A.B
    · rw [if_pos h1, if_pos h1]
      exact ⟨rfl, hl⟩
    · rw [if_neg h1, if_neg h1, res_ok_bind (E.compress _ _ hl)]
      exact res_blockLoop E _ _ rfl ⟨_, _, _⟩ hl
  · rw [if_neg h, if_neg h]
    exact res_blockLoop E _ _ rfl ⟨_, _, _⟩ hs

theorem shift_twice (len : U64) (i : Nat) : (len >>> (8 * i)) >>> 8 = len >>> (8 * (i + 1)) := by
  rw [← BitVec.shiftRight_add]; rfl

theorem set_append_rep {α : Type} (l : List α) (k : Nat) (z x : α) : (l ++ List.replicate (k + 1) z).set l.length x = l ++ [x] ++ List.replicate k z := by
  rw [List.set_append_right _ _ (Nat.le_refl _), Nat.sub_self, List.append_assoc]; rfl

theorem set_rep_append {α : Type} (l : List α) (k : Nat) (z x : α) : (List.replicate (k + 1) z ++ l).set k x = List.replicate k z ++ x :: l := by
  rw [List.replicate_succ', List.append_assoc, List.set_append_right _ _ (by rw [List.length_replicate]), List.length_replicate, Nat.sub_self]; rfl

theorem res_lenField (A : BlockAlg) (msglength : U64) : (lenFieldL A msglength).res = .ok (lenField A msglength) := by
  rw [lenFieldL, lenField]
  have := loop_inv (s := (List.replicate A.L 0#8, msglength * 8)) (n := A.L)
    (body := fun p n => (do
      let v ← wrL p.1 (if A.littleEndian then n else A.L - 1 - n) (p.2.setWidth 8)
      return (v, p.2 >>> 8) : Leak (List Byte × U64)).res)
    (fun k p => p.2 = (msglength * 8) >>> (8 * k) ∧ p.1 = (if A.littleEndian then
      (List.range k).map (fun i => ((msglength * 8) >>> (8 * i)).setWidth 8) ++ List.replicate (A.L - k) 0#8
      else List.replicate (A.L - k) 0#8 ++ ((List.range k).map (fun i => ((msglength * 8) >>> (8 * i)).setWidth 8)).reverse))
    ⟨by rw [Nat.mul_zero, BitVec.ushiftRight_zero], by cases A.littleEndian <;> simp⟩ fun i hi p ⟨e2, e1⟩ => by
    have hl : p.1.length = A.L := by
      rw [e1]; cases A.littleEndian <;> simp <;> omega
    refine ⟨(p.1.set (if A.littleEndian then i else A.L - 1 - i) (p.2.setWidth 8), p.2 >>> 8), ?_, ?_, ?_⟩
    · show (wrL _ _ _ >>= _).res = _
      rw [wr_bind (by split <;> omega)]; rfl
    · show p.2 >>> 8 = _
      rw [e2, shift_twice]
    · show p.1.set _ _ = _
      rw [e1, e2]
      obtain ⟨m, hm⟩ : ∃ m, A.L - i = m + 1 := ⟨A.L - i - 1, by omega⟩
      have hm' : A.L - (i + 1) = m := by omega
      have hm2 : A.L - 1 - i = m := by omega
      rw [hm, hm', hm2]
      cases A.littleEndian with
      | true =>
        rw [if_pos rfl, if_pos rfl, if_pos rfl]
        have := set_append_rep ((List.range i).map fun i => ((msglength * 8) >>> (8 * i)).setWidth 8) m 0#8 (((msglength * 8) >>> (8 * i)).setWidth 8)
        rw [List.length_map, List.length_range] at this
        rw [this, List.range_succ, List.map_append]; rfl
      | false =>
        rw [if_neg nofun, if_neg nofun, if_neg nofun, set_rep_append, List.range_succ, List.map_append, List.reverse_append]; rfl
  obtain ⟨p, h1, h2, h3⟩ := this
  rw [res_ok_bind (a := p) (by rw [res_loop]; exact h1)]
  show Except.ok p.1 = _
  rw [h3, Nat.sub_self]
  cases A.littleEndian with
  | true => rw [if_pos rfl, if_pos rfl, List.replicate_zero, List.append_nil]
  | false => rw [if_neg nofun, if_neg nofun, List.replicate_zero, List.nil_append]

theorem res_blockData (E : Erases L) (s : BlockState A) (hs : s.chunk.length = A.B) : (blockDataL L s).res = .ok s.data := by
  rw [blockDataL, BlockState.data]
  obtain ⟨h1, h2⟩ := res_blockAdd E s hs ((0x80#8 :: List.replicate A.B 0#8).take (A.B - (s.msglength + BitVec.ofNat 64 A.L).toNat % A.B))
  rw [res_ok_bind h1, res_ok_bind (res_lenField A s.msglength)]
  obtain ⟨h3, h4⟩ := res_blockAdd E _ h2 (lenField A s.msglength)
  rw [res_ok_bind h3]
  exact E.out _

theorem res_blockHash (E : Erases L) (n : Nat) (buf : List Byte) (hb : buf.length = A.B) (data : List Byte) :
    (do touch n; let s ← blockAddL L (BlockState.new A buf) data; blockDataL L s : Leak (List Byte)).res = .ok ((BlockState.new A buf).add data).data := by
  obtain ⟨h1, h2⟩ := res_blockAdd E (BlockState.new A buf) hb data
  show (touch n >>= _).res = _
  rw [res_ok_bind (res_touch n), res_ok_bind h1]
  exact res_blockData E _ h2

end

/-! ### SHA-3 -/

theorem xorAt_length (s : List U64) (i : Nat) (v : U64) : (xorAt s i v).length = s.length := by rw [xorAt, List.length_set]

theorem res_xorAt {s : List U64} {i : Nat} (h : i < s.length) (v : U64) : (xorAtL s i v).res = .ok (xorAt s i v) := by
  rw [xorAtL, rd_bind 0#64 h, wrL_in _ h]; rfl

theorem xor_bind {β : Type} {s : List U64} {i : Nat} (h : i < s.length) {v : U64} (f : List U64 → Leak β) : (xorAtL s i v >>= f).res = (f (xorAt s i v)).res :=
  res_ok_bind (res_xorAt h v) f

theorem res_theta {junk s : List U64} (hj : junk.length = 5) (hs : s.length = 25) : (sha3ThetaL junk s).res = .ok (sha3Theta s) ∧ (sha3Theta s).length = 25 := by
  rw [sha3ThetaL, sha3Theta]
  obtain ⟨c, h1, h2, h3⟩ := loopL_map (n := 5) (W := junk) (N := 5)
    (body := fun c x => do
      let c ← wrL c x 0#64
      loopL 5 c (fun c y => do
        let v ← rdL s (y * 5 + x)
        xorAtL c x v))
    (fun x => (List.range 5).foldl (fun (a : U64) y => a ^^^ s.getD (y * 5 + x) 0#64) 0#64) hj (by omega) fun W k hW hk => by
      rw [wr_bind (by omega), res_loop]
      obtain ⟨t, h1, h2⟩ := loop_inv (s := W.set k 0#64) (n := 5) (body := fun c y => (do
          let v ← rdL s (y * 5 + k)
          xorAtL c k v : Leak (List U64)).res)
        (fun n c => c = W.set k ((List.range n).foldl (fun (a : U64) y => a ^^^ s.getD (y * 5 + k) 0#64) 0#64)) rfl fun i hi c e => by
          refine ⟨_, by rw [rd_bind 0#64 (by omega), res_xorAt (by rw [e, List.length_set]; omega)], ?_⟩
          rw [e, xorAt, List.set_set, List.range_succ, List.foldl_append]
          refine congrArg (W.set k) ?_
          rw [List.getD_eq_getElem?_getD, List.getElem?_set_self (by omega)]; rfl
      rw [h1, h2]
  rw [res_ok_bind h1]
  obtain ⟨d, h4, h5, h6⟩ := loopL_map (n := 5) (W := junk) (N := 5)
    (body := fun d x => do
      let u ← rdL c ((x + 1) % 5)
      let v ← rdL c ((x + 4) % 5)
      wrL d x ((u <<< 1) ^^^ (u >>> 63) ^^^ v))
    (fun x => (c.getD ((x + 1) % 5) 0#64 <<< 1) ^^^ (c.getD ((x + 1) % 5) 0#64 >>> 63) ^^^ c.getD ((x + 4) % 5) 0#64) hj (by omega) fun W k hW hk => by
      rw [rd_bind 0#64 (by omega), rd_bind 0#64 (by omega)]
      exact wrL_in _ (by omega)
  rw [res_ok_bind h4]
  rw [List.take_of_length_le (by omega)] at h3 h6
  rw [← h3]
  dsimp only
  rw [← h6]
  refine loopL_fold _ (fun s : List U64 => s.length = 25) hs fun i hi s hs => ⟨?_, by simp only [xorAt_length, hs]⟩
  rw [rd_bind 0#64 (by omega), xor_bind (by omega), xor_bind (by rw [xorAt_length]; omega), xor_bind (by rw [xorAt_length, xorAt_length]; omega),
    xor_bind (by rw [xorAt_length, xorAt_length, xorAt_length]; omega), res_xorAt (by rw [xorAt_length, xorAt_length, xorAt_length, xorAt_length]; omega)]

theorem res_chain : ∀ (ops : List (Nat × Nat × Nat × Nat)), (∀ o ∈ ops, o.1 < 25 ∧ o.2.1 < 25) → ∀ s : List U64, s.length = 25 →
    (sha3ChainL ops s).res = .ok (ops.foldl (fun s (o : Nat × Nat × Nat × Nat) => s.set o.1 ((s.getD o.2.1 0#64 <<< o.2.2.1) ||| (s.getD o.2.1 0#64 >>> o.2.2.2))) s) ∧
    (ops.foldl (fun s (o : Nat × Nat × Nat × Nat) => s.set o.1 ((s.getD o.2.1 0#64 <<< o.2.2.1) ||| (s.getD o.2.1 0#64 >>> o.2.2.2))) s).length = 25
  | [], _, s, hs => ⟨rfl, hs⟩
  | (dst, src, l, r) :: ops, h, s, hs => by
    have h1 : dst < 25 := (h (dst, src, l, r) List.mem_cons_self).1
    have h2 : src < 25 := (h (dst, src, l, r) List.mem_cons_self).2
    rw [sha3ChainL, rd_bind 0#64 (by omega), wr_bind (by omega), List.foldl_cons]
    exact res_chain ops (fun o ho => h o (List.mem_cons_of_mem _ ho)) _ (by rw [List.length_set, hs])

theorem res_rhoPi {s : List U64} (hs : s.length = 25) : (sha3RhoPiL s).res = .ok (sha3RhoPi s) ∧ (sha3RhoPi s).length = 25 := by
  obtain ⟨h1, h2⟩ := res_chain sha3Chain (by decide) s hs
  rw [sha3RhoPiL, rd_bind 0#64 (by omega), res_ok_bind h1, wrL_in _ (by omega)]
  exact ⟨rfl, by rw [sha3RhoPi, List.length_set]; exact h2⟩

theorem res_chi {junk s : List U64} (hj : junk.length = 5) (hs : s.length = 25) : (sha3ChiL junk s).res = .ok (sha3Chi s) ∧ (sha3Chi s).length = 25 := by
  rw [sha3ChiL, sha3Chi]
  refine loopL_fold _ (fun s : List U64 => s.length = 25) hs fun y hy s hs => ?_
  obtain ⟨c, h1, h2, h3⟩ := loopL_map (n := 5) (W := junk) (N := 5)
    (body := fun c x => do
      let u ← rdL s (y * 5 + x)
      let v ← rdL s (5 * y + ((x + 1) % 5))
      let w ← rdL s (5 * y + ((x + 2) % 5))
      wrL c x (u ^^^ (~~~ v &&& w)))
    (fun x => s.getD (y * 5 + x) 0#64 ^^^ (~~~ s.getD (5 * y + ((x + 1) % 5)) 0#64 &&& s.getD (5 * y + ((x + 2) % 5)) 0#64)) hj (by omega) fun W k hW hk => by
      rw [rd_bind 0#64 (by omega), rd_bind 0#64 (by omega), rd_bind 0#64 (by omega)]
      exact wrL_in _ (by omega)
  rw [List.take_of_length_le (by omega)] at h3
  dsimp only
  rw [res_ok_bind h1, ← h3]
  refine loopL_fold _ (fun s : List U64 => s.length = 25) hs fun x hx s hs => ⟨?_, by rw [List.length_set, hs]⟩
  rw [rd_bind 0#64 (by omega)]
  exact wrL_in _ (by omega)

theorem res_process {junk s : List U64} (hj : junk.length = 5) (hs : s.length = 25) : (sha3ProcessL junk s).res = .ok (sha3Process s) ∧ (sha3Process s).length = 25 := by
  rw [sha3ProcessL, sha3Process]
  refine loopL_fold _ (fun s : List U64 => s.length = 25) hs fun round hr s hs => ?_
  obtain ⟨h1, l1⟩ := res_theta hj hs
  obtain ⟨h2, l2⟩ := res_rhoPi l1
  obtain ⟨h3, l3⟩ := res_chi hj l2
  rw [res_ok_bind h1, res_ok_bind h2, res_ok_bind h3, rd_bind 0#64 (show round < sha3RC.length from hr), res_xorAt (by omega)]
  exact ⟨rfl, by rw [xorAt_length, l3]⟩

theorem res_bytes {junk : List U64} (hj : junk.length = 5) {chunksize : Nat} (hc : 0 < chunksize) (hc2 : chunksize ≤ 200) : ∀ (data : List Byte) (s : List U64) (offset : Nat),
    s.length = 25 → offset < chunksize → (sha3BytesL junk chunksize data s offset).res = .ok (data.foldl (sha3AddByte chunksize) (s, offset)).1 ∧
      (data.foldl (sha3AddByte chunksize) (s, offset)).1.length = 25
  | [], s, offset, hs, _ => ⟨rfl, hs⟩
  | c :: data, s, offset, hs, ho => by
    rw [sha3BytesL, emit_bind, xor_bind (by omega), emit_bind, List.foldl_cons, sha3AddByte]
    dsimp only
    by_cases h : offset + 1 = chunksize
    · rw [if_pos h, if_pos h]
      obtain ⟨h1, h2⟩ := res_process hj (s := xorAt s (offset / 8) (c.setWidth 64 <<< ((offset % 8) * 8))) (by rw [xorAt_length, hs])
      rw [res_ok_bind h1]
      exact res_bytes hj hc hc2 data _ 0 h2 hc
    · rw [if_neg h, if_neg h]
      exact res_bytes hj hc hc2 data _ _ (by rw [xorAt_length, hs]) (by omega)

theorem res_sha3Add {junk : List U64} (hj : junk.length = 5) {size : Nat} (hr : 0 < sha3Rate size) (hr2 : sha3Rate size ≤ 200) (st : Sha3State) (hs : st.s.length = 25)
    (data : List Byte) : (sha3AddL junk size st data).res = .ok (st.add size data) ∧ (st.add size data).s.length = 25 := by
  obtain ⟨h1, h2⟩ := res_bytes hj hr hr2 data st.s (st.msglength.toNat % sha3Rate size) hs (Nat.mod_lt _ hr)
  rw [sha3AddL, res_ok_bind h1]
  exact ⟨rfl, h2⟩

theorem res_sha3Data {junk : List U64} (hj : junk.length = 5) {size : Nat} (hr : 8 ≤ sha3Rate size) (hr2 : sha3Rate size ≤ 200) (hz : size ≤ 1600) (st : Sha3State) (hs : st.s.length = 25) :
    (sha3DataL junk size st).res = .ok (st.data size) := by
  have ho := Nat.mod_lt st.msglength.toNat (y := sha3Rate size) (by omega)
  rw [sha3DataL, Sha3State.data]
  generalize st.msglength.toNat % sha3Rate size = offset at ho
  rw [xor_bind (by omega), xor_bind (by rw [xorAt_length]; omega)]
  obtain ⟨h1, h2⟩ := res_process hj (s := xorAt (xorAt st.s (offset / 8) (0x06#64 <<< ((offset % 8) * 8))) (sha3Rate size / 8 - 1) 0x8000000000000000#64)
    (by rw [xorAt_length, xorAt_length, hs])
  rw [res_ok_bind h1]
  generalize sha3Process _ = s at h2
  obtain ⟨rv, h3, h4, h5⟩ := loopL_map (n := size / 8) (W := List.replicate (size / 8) 0#8) (N := size / 8)
    (body := fun rv n => do
      let v ← rdL s (n / 8)
      wrL rv n ((v >>> (8 * (n % 8))).setWidth 8))
    (fun n => (s.getD (n / 8) 0#64 >>> (8 * (n % 8))).setWidth 8) List.length_replicate (Nat.le_refl _) fun W k hW hk => by
      rw [rd_bind 0#64 (by omega)]
      exact wrL_in _ (by omega)
  rw [List.take_of_length_le (by omega)] at h5
  rw [h3, h5]

theorem res_sha3Hash {junk : List U64} (hj : junk.length = 5) {size : Nat} (hr : 8 ≤ sha3Rate size) (hr2 : sha3Rate size ≤ 200) (hz : size ≤ 1600) (data : List Byte) :
    (do let s ← sha3AddL junk size Sha3State.new data; sha3DataL junk size s : Leak (List Byte)).res = .ok ((Sha3State.new.add size data).data size) := by
  obtain ⟨h1, h2⟩ := res_sha3Add hj (size := size) (by omega) hr2 Sha3State.new List.length_replicate data
  show (sha3AddL junk size Sha3State.new data >>= _).res = _
  rw [res_ok_bind h1]
  exact res_sha3Data hj hr hr2 hz _ h2

/-! ### CRC32 -/

theorem crcTable_length : crcTable.length = 256 := by decide +kernel

theorem res_crcAdd : ∀ (data : List Byte) (h : U32), (crcAddL h data).res = .ok (crcAdd h data)
  | [], h => rfl
  | b :: data, h => by
    rw [crcAddL, emit_bind, rd_bind 0#32 (by rw [crcTable_length, BitVec.toNat_and]; exact Nat.lt_succ_of_le Nat.and_le_right)]
    exact res_crcAdd data _

/-! ### all classes -/

/-- The uninitialised arrays have the sizes of the source. -/
structure JunkOk (J : Junk) : Prop where
  w32 : J.w32.length = 80
  w64 : J.w64.length = 80
  w5 : J.w5.length = 5

/-- With every array access checked, `H(data).data()` is the digest, whatever the uninitialised arrays hold. -/
theorem res_hashOf' {J : Junk} (hJ : JunkOk J) (c : HashClass) (buf : List Byte) (hb : buf.length = bufSize c) (data : List Byte) :
    (hashOfL J buf c data).res = .ok (hdigest c buf data) := by
  have h64 : (J.w32.take 64).length = 64 := by rw [List.length_take, hJ.w32]; rfl
  cases c with
  | md5 => exact res_blockHash md5_erases 4 buf hb data
  | sha1 => exact res_blockHash (sha1_erases hJ.w32) 5 buf hb data
  | sha2_224 => exact res_blockHash (sha224_erases h64) 8 buf hb data
  | sha2_256 => exact res_blockHash (sha256_erases h64) 8 buf hb data
  | sha2_384 => exact res_blockHash (sha384_erases hJ.w64) 8 buf hb data
  | sha2_512 => exact res_blockHash (sha512_erases hJ.w64) 8 buf hb data
  | sha3_224 => exact res_sha3Hash hJ.w5 (by decide) (by decide) (by decide) data
  | sha3_256 => exact res_sha3Hash hJ.w5 (by decide) (by decide) (by decide) data
  | sha3_384 => exact res_sha3Hash hJ.w5 (by decide) (by decide) (by decide) data
  | sha3_512 => exact res_sha3Hash hJ.w5 (by decide) (by decide) (by decide) data
  | crc32 =>
    show (crcAddL crcNew data >>= _).res = _
    rw [res_ok_bind (res_crcAdd data crcNew)]
    rfl

end Verif.Proof
