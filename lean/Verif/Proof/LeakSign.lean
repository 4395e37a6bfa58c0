import Verif.Model.LeakSign
import Verif.Proof.LeakHashSame
import Verif.Proof.LeakSame
import Verif.Proof.LeakPrime

/-! The signature functions with events compute what the functions without events compute, and runs with the same events. -/

namespace Verif.Proof

open Verif.Model

/-! ### several pieces -/

section
variable {A : BlockAlg} {L L' : BlockAlgL A}

theorem res_blockPieces (E : Erases L) : ∀ (ds : List (List Byte)) (s : BlockState A), s.chunk.length = A.B →
    (blockPiecesL L s ds).res = .ok (ds.foldl BlockState.add s) ∧ (ds.foldl BlockState.add s).chunk.length = A.B
  | [], _, hs => ⟨rfl, hs⟩
  | d :: ds, s, hs => by
    obtain ⟨h1, h2⟩ := res_blockAdd E s hs d
    rw [blockPiecesL, res_ok_bind h1]
    exact res_blockPieces E ds _ h2

theorem res_blockPieceHash (E : Erases L) (n : Nat) (buf : List Byte) (hb : buf.length = A.B) (ds : List (List Byte)) :
    (blockPieceHashL L n buf ds).res = .ok (ds.foldl BlockState.add (BlockState.new A buf)).data := by
  obtain ⟨h1, h2⟩ := res_blockPieces E ds (BlockState.new A buf) hb
  rw [blockPieceHashL, res_ok_bind (res_touch n), res_ok_bind h1]
  exact res_blockData E _ h2

/-- Lists of pieces with the same sizes. -/
abbrev SLs (ds ds' : List (List Byte)) : Prop := List.Forall₂ SL ds ds'

theorem same_blockPieces (E : CtBlock L L') {ds ds' : List (List Byte)} (hd : SLs ds ds') : ∀ {s s' : BlockState A}, SameState s s' →
    Same id SameState (blockPiecesL L s ds) (blockPiecesL L' s' ds') := by
  induction hd with
  | nil => intro s s' hs; exact Same.pure hs
  | cons h _ ih => intro s s' hs; exact Same.bind (same_blockAdd E hs h) fun _ _ hs => ih hs

theorem same_blockPieceHash (E : CtBlock L L') (n : Nat) {buf buf' : List Byte} (hb : SL buf buf') {ds ds' : List (List Byte)} (hd : SLs ds ds') :
    Same id SL (blockPieceHashL L n buf ds) (blockPieceHashL L' n buf' ds') := by
  have h0 : SameState (BlockState.new A buf) (BlockState.new A buf') := ⟨hb, rfl⟩
  exact Same.bind (Same.touch n) fun _ _ _ => Same.bind (same_blockPieces E hd h0) fun _ _ hs => same_blockData E hs

end

theorem res_sha3Pieces {junk : List U64} (hj : junk.length = 5) {size : Nat} (hr : 0 < sha3Rate size) (hr2 : sha3Rate size ≤ 200) : ∀ (ds : List (List Byte)) (s : Sha3State),
    s.s.length = 25 → (sha3PiecesL junk size s ds).res = .ok (ds.foldl (Sha3State.add size) s) ∧ (ds.foldl (Sha3State.add size) s).s.length = 25
  | [], _, hs => ⟨rfl, hs⟩
  | d :: ds, s, hs => by
    obtain ⟨h1, h2⟩ := res_sha3Add hj hr hr2 s hs d
    rw [sha3PiecesL, res_ok_bind h1]
    exact res_sha3Pieces hj hr hr2 ds _ h2

theorem res_sha3PieceHash {junk : List U64} (hj : junk.length = 5) {size : Nat} (hr : 8 ≤ sha3Rate size) (hr2 : sha3Rate size ≤ 200) (hz : size ≤ 1600) (ds : List (List Byte)) :
    (sha3PieceHashL junk size ds).res = .ok ((ds.foldl (Sha3State.add size) Sha3State.new).data size) := by
  obtain ⟨h1, h2⟩ := res_sha3Pieces hj (size := size) (by omega) hr2 ds Sha3State.new List.length_replicate
  rw [sha3PieceHashL, res_ok_bind h1]
  exact res_sha3Data hj hr hr2 hz _ h2

theorem same_sha3Pieces {junk junk' : List U64} (hj : SL junk junk') (size : Nat) {ds ds' : List (List Byte)} (hd : SLs ds ds') : ∀ {s s' : Sha3State},
    SL s.s s'.s ∧ s.msglength = s'.msglength →
    Same id (fun s s' : Sha3State => SL s.s s'.s ∧ s.msglength = s'.msglength) (sha3PiecesL junk size s ds) (sha3PiecesL junk' size s' ds') := by
  induction hd with
  | nil => intro s s' hs; exact Same.pure hs
  | @cons d d' _ _ h _ ih =>
    intro s s' hs
    rw [sha3PiecesL, sha3PiecesL]
    refine Same.bind (R := fun s s' : Sha3State => SL s.s s'.s ∧ s.msglength = s'.msglength) ?_ fun _ _ hs => ih hs
    rw [sha3AddL, sha3AddL, hs.2]
    exact Same.bind (same_bytes hj _ _ _ _ _ _ h hs.1) fun _ _ hs => Same.pure ⟨hs, by rw [h]⟩

theorem same_sha3PieceHash {junk junk' : List U64} (hj : SL junk junk') (size : Nat) {ds ds' : List (List Byte)} (hd : SLs ds ds') :
    Same id SL (sha3PieceHashL junk size ds) (sha3PieceHashL junk' size ds') := by
  refine Same.bind (same_sha3Pieces hj size hd ⟨rfl, rfl⟩) fun s s' hs => ?_
  rw [sha3DataL, sha3DataL]
  rw [hs.2]
  exact Same.bind (same_xorAt hs.1 _ _ _) fun _ _ hs => Same.bind (same_xorAt hs _ _ _) fun _ _ hs => Same.bind (same_process hj hs) fun _ _ hs =>
    Same.loop _ rfl fun _ _ _ hr => Same.bind (Same.rd hs _) fun _ _ _ => Same.wr hr _ _ _

theorem res_crcPieces : ∀ (ds : List (List Byte)) (h : U32), (crcPiecesL h ds).res = .ok (ds.foldl crcAdd h)
  | [], _ => rfl
  | d :: ds, h => by
    rw [crcPiecesL, res_ok_bind (res_crcAdd d h)]
    exact res_crcPieces ds _

/-- With every array access checked, hashing the pieces gives the digest of the object without events. -/
theorem res_hashPieces {J : Junk} (hJ : JunkOk J) (c : HashClass) (ds : List (List Byte)) :
    (hashPiecesL J (zeroBuf c) c ds).res = .ok (hdata c (ds.foldl (hadd c) (hnew0 c))) := by
  have h64 : (J.w32.take 64).length = 64 := by rw [List.length_take, hJ.w32]; rfl
  cases c with
  | md5 =>
    have e : hdata .md5 (ds.foldl (hadd .md5) (hnew0 .md5)) = BlockState.data (A := md5) (ds.foldl (hadd .md5) (hnew0 .md5)) := rfl
    have e' : (ds.foldl (hadd .md5) (hnew0 .md5) : BlockState md5) = ds.foldl BlockState.add (BlockState.new md5 (zeroBuf .md5)) := rfl
    rw [e, e']
    exact res_blockPieceHash md5_erases 4 _ List.length_replicate ds
  | sha1 =>
    have e : hdata .sha1 (ds.foldl (hadd .sha1) (hnew0 .sha1)) = BlockState.data (A := sha1) (ds.foldl (hadd .sha1) (hnew0 .sha1)) := rfl
    have e' : (ds.foldl (hadd .sha1) (hnew0 .sha1) : BlockState sha1) = ds.foldl BlockState.add (BlockState.new sha1 (zeroBuf .sha1)) := rfl
    rw [e, e']
    exact res_blockPieceHash (sha1_erases hJ.w32) 5 _ List.length_replicate ds
  | sha2_224 =>
    have e : hdata .sha2_224 (ds.foldl (hadd .sha2_224) (hnew0 .sha2_224)) = BlockState.data (A := sha224) (ds.foldl (hadd .sha2_224) (hnew0 .sha2_224)) := rfl
    have e' : (ds.foldl (hadd .sha2_224) (hnew0 .sha2_224) : BlockState sha224) = ds.foldl BlockState.add (BlockState.new sha224 (zeroBuf .sha2_224)) := rfl
    rw [e, e']
    exact res_blockPieceHash (sha224_erases h64) 8 _ List.length_replicate ds
  | sha2_256 =>
    have e : hdata .sha2_256 (ds.foldl (hadd .sha2_256) (hnew0 .sha2_256)) = BlockState.data (A := sha256) (ds.foldl (hadd .sha2_256) (hnew0 .sha2_256)) := rfl
    have e' : (ds.foldl (hadd .sha2_256) (hnew0 .sha2_256) : BlockState sha256) = ds.foldl BlockState.add (BlockState.new sha256 (zeroBuf .sha2_256)) := rfl
    rw [e, e']
    exact res_blockPieceHash (sha256_erases h64) 8 _ List.length_replicate ds
  | sha2_384 =>
    have e : hdata .sha2_384 (ds.foldl (hadd .sha2_384) (hnew0 .sha2_384)) = BlockState.data (A := sha384) (ds.foldl (hadd .sha2_384) (hnew0 .sha2_384)) := rfl
    have e' : (ds.foldl (hadd .sha2_384) (hnew0 .sha2_384) : BlockState sha384) = ds.foldl BlockState.add (BlockState.new sha384 (zeroBuf .sha2_384)) := rfl
    rw [e, e']
    exact res_blockPieceHash (sha384_erases hJ.w64) 8 _ List.length_replicate ds
  | sha2_512 =>
    have e : hdata .sha2_512 (ds.foldl (hadd .sha2_512) (hnew0 .sha2_512)) = BlockState.data (A := sha512) (ds.foldl (hadd .sha2_512) (hnew0 .sha2_512)) := rfl
    have e' : (ds.foldl (hadd .sha2_512) (hnew0 .sha2_512) : BlockState sha512) = ds.foldl BlockState.add (BlockState.new sha512 (zeroBuf .sha2_512)) := rfl
    rw [e, e']
    exact res_blockPieceHash (sha512_erases hJ.w64) 8 _ List.length_replicate ds
  | sha3_224 =>
    have e : hdata .sha3_224 (ds.foldl (hadd .sha3_224) (hnew0 .sha3_224)) = Sha3State.data 224 (ds.foldl (hadd .sha3_224) (hnew0 .sha3_224)) := rfl
    have e' : (ds.foldl (hadd .sha3_224) (hnew0 .sha3_224) : Sha3State) = ds.foldl (Sha3State.add 224) Sha3State.new := rfl
    rw [e, e']
    exact res_sha3PieceHash hJ.w5 (by decide) (by decide) (by decide) ds
  | sha3_256 =>
    have e : hdata .sha3_256 (ds.foldl (hadd .sha3_256) (hnew0 .sha3_256)) = Sha3State.data 256 (ds.foldl (hadd .sha3_256) (hnew0 .sha3_256)) := rfl
    have e' : (ds.foldl (hadd .sha3_256) (hnew0 .sha3_256) : Sha3State) = ds.foldl (Sha3State.add 256) Sha3State.new := rfl
    rw [e, e']
    exact res_sha3PieceHash hJ.w5 (by decide) (by decide) (by decide) ds
  | sha3_384 =>
    have e : hdata .sha3_384 (ds.foldl (hadd .sha3_384) (hnew0 .sha3_384)) = Sha3State.data 384 (ds.foldl (hadd .sha3_384) (hnew0 .sha3_384)) := rfl
    have e' : (ds.foldl (hadd .sha3_384) (hnew0 .sha3_384) : Sha3State) = ds.foldl (Sha3State.add 384) Sha3State.new := rfl
    rw [e, e']
    exact res_sha3PieceHash hJ.w5 (by decide) (by decide) (by decide) ds
  | sha3_512 =>
    have e : hdata .sha3_512 (ds.foldl (hadd .sha3_512) (hnew0 .sha3_512)) = Sha3State.data 512 (ds.foldl (hadd .sha3_512) (hnew0 .sha3_512)) := rfl
    have e' : (ds.foldl (hadd .sha3_512) (hnew0 .sha3_512) : Sha3State) = ds.foldl (Sha3State.add 512) Sha3State.new := rfl
    rw [e, e']
    exact res_sha3PieceHash hJ.w5 (by decide) (by decide) (by decide) ds
  | crc32 =>
    show (crcPiecesL crcNew ds >>= _).res = _
    rw [res_ok_bind (res_crcPieces ds crcNew)]
    rfl

theorem same_hashPieces {J J' : Junk} (hJ : SameJunk J J') {buf buf' : List Byte} (hb : SL buf buf') {c : HashClass} (hc : c ≠ .crc32) {ds ds' : List (List Byte)}
    (hd : SLs ds ds') : Same id SL (hashPiecesL J buf c ds) (hashPiecesL J' buf' c ds') := by
  have h64 : SL (J.w32.take 64) (J'.w32.take 64) := by rw [SL, List.length_take, List.length_take, hJ.w32]
  cases c with
  | md5 => exact same_blockPieceHash md5_ct _ hb hd
  | sha1 => exact same_blockPieceHash (sha1_ct hJ.w32) _ hb hd
  | sha2_224 => exact same_blockPieceHash (sha224_ct h64) _ hb hd
  | sha2_256 => exact same_blockPieceHash (sha256_ct h64) _ hb hd
  | sha2_384 => exact same_blockPieceHash (sha384_ct hJ.w64) _ hb hd
  | sha2_512 => exact same_blockPieceHash (sha512_ct hJ.w64) _ hb hd
  | sha3_224 => exact same_sha3PieceHash hJ.w5 _ hd
  | sha3_256 => exact same_sha3PieceHash hJ.w5 _ hd
  | sha3_384 => exact same_sha3PieceHash hJ.w5 _ hd
  | sha3_512 => exact same_sha3PieceHash hJ.w5 _ hd
  | crc32 => exact absurd rfl hc

/-! ### PKCS #1 -/

theorem res_idle (n : Nat) (o : Nat → Obs) : (loopL n () fun _ i => emit (o i)).res = .ok () := by
  rw [res_loop]
  obtain ⟨t, h, _⟩ := loop_inv (s := ()) (n := n) (body := fun _ i => (emit (o i)).res) (fun _ _ => True) trivial fun _ _ _ _ => ⟨(), rfl, trivial⟩
  exact h

theorem res_prefix (size : Nat) : (pkcs1PrefixL size).res = .ok (pkcs1Prefix size) := by
  rw [pkcs1PrefixL, emit_bind]
  by_cases h1 : size < 0x80
  · rw [if_pos h1]; rfl
  rw [if_neg h1]
  show (emit _ >>= _).res = _
  rw [emit_bind]
  by_cases h2 : size < 0x100
  · rw [if_pos h2]; rfl
  rw [if_neg h2]
  rfl

theorem res_pkcs1 {J : Junk} (hJ : JunkOk J) (c : HashClass) (data : List Byte) (n : Nat) : (pkcs1L J (zeroBuf c) c data n).res = pkcs1 c data n := by
  rw [pkcs1L, pkcs1]
  dsimp only
  generalize szSub (szSub (szSub n (asn1Id c).length) (hashsize c)) 1 = bound
  by_cases h : 2 ^ 63 ≤ bound
  · rw [if_pos h, if_pos h]; rfl
  rw [if_neg h, if_neg h, res_ok_bind (res_touch 2)]
  rw [res_ok_bind (res_idle _ fun i => .addr (2 + i)), emit_bind, res_ok_bind (res_prefix _), res_ok_bind (res_hashPieces hJ c _), emit_bind, res_pure]
  simp only [List.foldl_cons, List.foldl_nil, List.length_cons, List.length_nil, Nat.zero_add, Nat.reduceAdd]

theorem same_prefix (n : Nat) : Same id (· = ·) (pkcs1PrefixL n) (pkcs1PrefixL n) := by
  refine ⟨rfl, ?_⟩
  rw [res_prefix]

theorem same_pkcs1 {J J' : Junk} (hJ : SameJunk J J') {buf buf' : List Byte} (hb : SL buf buf') {c : HashClass} (hc : c ≠ .crc32) {data data' : List Byte} (hd : SL data data')
    (n : Nat) : Same id SL (pkcs1L J buf c data n) (pkcs1L J' buf' c data' n) := by
  rw [pkcs1L, pkcs1L]
  dsimp only
  refine Same.ite Iff.rfl (fun _ => ⟨rfl, rfl⟩) fun _ => Same.bind (Same.touch _) fun _ _ _ => Same.bind (R := fun _ _ => True)
    (Same.loop _ trivial fun _ _ _ _ => Same.emit rfl) fun _ _ _ => Same.bind (Same.emit rfl) fun _ _ _ => ?_
  rw [hd]
  refine Same.bind (same_prefix _) fun p p' hp => Same.bind (same_hashPieces hJ hb hc (.cons (by rw [hp]) (.cons hd .nil))) fun _ _ h => Same.bind (Same.emit rfl) fun _ _ _ => ?_
  exact Same.pure (by simp only [SL, List.length_append, h])

/-! ### MGF1 and PSS -/

theorem res_incr (C : List Byte) : (mgfIncrL C).res = mgfIncr C := by
  simp only [mgfIncrL, mgfIncr, res_bind, res_rd, res_wr, res_emit, ok_bind, res_ite, res_pure]
  rfl

theorem res_mgfLoop {J : Junk} (hJ : JunkOk J) (c : HashClass) (length : Nat) : ∀ (k : Nat) (T C : List Byte),
    (mgfLoopL J (zeroBuf c) c length k T C).res = mgfLoop c length k T C
  | 0, _, _ => rfl
  | k + 1, T, C => by
    rw [mgfLoopL, emit_bind, mgfLoop]
    by_cases h : T.length < length
    · rw [if_pos h, if_pos h, res_ok_bind (res_hashOf hJ c C), emit_bind, res_bind, res_incr]
      exact congrArg (mgfIncr C >>= ·) (funext fun C => res_mgfLoop hJ c length k _ C)
    · rw [if_neg h, if_neg h]; rfl

theorem res_mgf {J : Junk} (hJ : JunkOk J) (c : HashClass) (seed : List Byte) (length : Nat) : (mgfL J (zeroBuf c) c seed length).res = mgf c seed length := by
  rw [mgfL, emit_bind, mgf]
  by_cases h : 0x100000000 < length
  · rw [if_pos h, if_pos h]; rfl
  · rw [if_neg h, if_neg h, res_bind, res_mgfLoop hJ]; rfl

theorem res_generatePss {J : Junk} (hJ : JunkOk J) (c : HashClass) (data salt : List Byte) (n : Nat) :
    (generatePssL J (zeroBuf c) c data salt n).res = generatePss c data salt n := by
  rw [generatePssL, res_ok_bind (res_hashPieces hJ c _), generatePss, List.foldl_cons, List.foldl_cons, List.foldl_cons, List.foldl_nil]
  generalize hdata c _ = H
  rw [res_bind, res_mgf hJ]
  refine congrArg (mgf c H _ >>= ·) (funext fun m => ?_)
  rw [res_bind, res_rd]
  refine congrArg (rd m _ >>= ·) (funext fun a => ?_)
  rw [res_bind, res_wr]
  refine congrArg (wr m _ _ >>= ·) (funext fun m => ?_)
  have hb (i : Nat) (m : List Byte) (f : Nat → Nat) : (do
      let a ← rdL m (f i)
      let b ← rdL salt i
      wrL m (f i) (a ^^^ b) : Leak (List Byte)).res = (do
      let a ← rd m (f i)
      let b ← rd salt i
      wr m (f i) (a ^^^ b)) := by
    simp only [res_bind, res_rd, res_wr]
  rw [res_bind, res_loop]
  have he : (fun (m : List Byte) (n : Nat) => (do
      let a ← rdL m ((szSub m.length salt.length + n) % 2 ^ 64)
      let b ← rdL salt n
      wrL m ((szSub m.length salt.length + n) % 2 ^ 64) (a ^^^ b) : Leak (List Byte)).res) = fun m n => (do
      let a ← rd m ((szSub m.length salt.length + n) % 2 ^ 64)
      let b ← rd salt n
      wr m ((szSub m.length salt.length + n) % 2 ^ 64) (a ^^^ b)) := funext fun m => funext fun n => hb n m fun n => (szSub m.length salt.length + n) % 2 ^ 64
  dsimp only
  rw [he]
  refine congrArg (loop _ _ _ >>= ·) (funext fun m => ?_)
  rw [emit_bind, res_pure]
  rfl

/-- Two strings of the same length with the same last four bytes. -/
def Tail4 (C C' : List Byte) : Prop := ∃ s s' t : List Byte, C = s ++ t ∧ C' = s' ++ t ∧ s.length = s'.length ∧ t.length = 4

theorem Tail4.sl {C C' : List Byte} (h : Tail4 C C') : SL C C' := by
  obtain ⟨s, s', t, rfl, rfl, h, _⟩ := h
  rw [SL, List.length_append, List.length_append, h]

theorem Tail4.rd {C C' : List Byte} (h : Tail4 C C') {j : Nat} (h1 : 1 ≤ j) (h4 : j ≤ 4) : Same id (· = ·) (rdL C (C.length - j)) (rdL C' (C'.length - j)) := by
  have hl := h.sl
  obtain ⟨s, s', t, rfl, rfl, hs, ht⟩ := h
  rw [← hl]
  refine ⟨rfl, ?_⟩
  rw [List.length_append, rdL_in 0#8 (by rw [List.length_append]; omega), rdL_in 0#8 (by rw [List.length_append]; omega)]
  show (s ++ t).getD _ _ = (s' ++ t).getD _ _
  rw [List.getD_append_right _ _ _ _ (by omega), List.getD_append_right _ _ _ _ (by omega), hs]

theorem Tail4.wr {C C' : List Byte} (h : Tail4 C C') {j : Nat} (h1 : 1 ≤ j) (h4 : j ≤ 4) (x : Byte) : Same id Tail4 (wrL C (C.length - j) x) (wrL C' (C'.length - j) x) := by
  have hl := h.sl
  obtain ⟨s, s', t, rfl, rfl, hs, ht⟩ := h
  rw [← hl]
  refine ⟨rfl, ?_⟩
  rw [List.length_append, wrL_in x (by rw [List.length_append]; omega), wrL_in x (by rw [List.length_append]; omega)]
  refine ⟨s, s', t.set (4 - j) x, ?_, ?_, hs, by rw [List.length_set, ht]⟩
  · rw [List.set_append_right _ _ (by omega)]
    exact congrArg (s ++ t.set · x) (by omega)
  · rw [List.set_append_right _ _ (by omega)]
    exact congrArg (s' ++ t.set · x) (by omega)

theorem same_incr {C C' : List Byte} (h : Tail4 C C') : Same id Tail4 (mgfIncrL C) (mgfIncrL C') := by
  rw [mgfIncrL, mgfIncrL]
  refine Same.bind (h.rd (by decide) (by decide)) fun a _ e => ?_
  subst e
  refine Same.bind (h.wr (by decide) (by decide) _) fun C C' h => Same.bind (Same.emit rfl) fun _ _ _ => Same.ite Iff.rfl (fun _ => ?_) fun _ => Same.pure h
  refine Same.bind (h.rd (by decide) (by decide)) fun a _ e => ?_
  subst e
  refine Same.bind (h.wr (by decide) (by decide) _) fun C C' h => Same.bind (Same.emit rfl) fun _ _ _ => Same.ite Iff.rfl (fun _ => ?_) fun _ => Same.pure h
  refine Same.bind (h.rd (by decide) (by decide)) fun a _ e => ?_
  subst e
  refine Same.bind (h.wr (by decide) (by decide) _) fun C C' h => Same.bind (Same.emit rfl) fun _ _ _ => Same.ite Iff.rfl (fun _ => ?_) fun _ => Same.pure h
  refine Same.bind (h.rd (by decide) (by decide)) fun a _ e => ?_
  subst e
  exact h.wr (by decide) (by decide) _

section
variable {J J' : Junk} (hJ : SameJunk J J') {buf buf' : List Byte} (hb : SL buf buf') {c : HashClass} (hc : c ≠ .crc32)
include hJ hb hc

theorem same_mgfLoop (length : Nat) : ∀ (k : Nat) (T T' C C' : List Byte), SL T T' → Tail4 C C' →
    Same id SL (mgfLoopL J buf c length k T C) (mgfLoopL J' buf' c length k T' C')
  | 0, T, T', _, _, h, _ => by
    refine ⟨rfl, ?_⟩
    rw [mgfLoopL, mgfLoopL, res_ofOut, res_ofOut, ← h]
    by_cases hl : T.length < length
    · rw [if_pos hl, if_pos hl]
    · rw [if_neg hl, if_neg hl]; exact h
  | k + 1, T, T', C, C', h, hC => by
    rw [mgfLoopL, mgfLoopL, ← h]
    refine Same.bind (Same.emit rfl) fun _ _ _ => Same.ite Iff.rfl (fun _ => ?_) fun _ => Same.pure h
    exact Same.bind (same_hashOf hJ hb hc hC.sl) fun _ _ hh => Same.bind (Same.emit rfl) fun _ _ _ => Same.bind (same_incr hC) fun _ _ hC =>
      same_mgfLoop length k _ _ _ _ (by rw [SL, List.length_append, List.length_append, h, hh]) hC

theorem same_mgf {seed seed' : List Byte} (hs : SL seed seed') (length : Nat) : Same id SL (mgfL J buf c seed length) (mgfL J' buf' c seed' length) := by
  refine Same.bind (Same.emit rfl) fun _ _ _ => Same.ite Iff.rfl (fun _ => Same.pure rfl) fun _ => ?_
  exact Same.bind (same_mgfLoop hJ hb hc length length _ _ _ _ rfl ⟨_, _, _, rfl, rfl, hs, rfl⟩) fun _ _ h => Same.pure (by rw [SL, List.length_take, List.length_take, h])

theorem same_generatePss {data data' salt salt' : List Byte} (hd : SL data data') (hs : SL salt salt') (n : Nat) :
    Same id SL (generatePssL J buf c data salt n) (generatePssL J' buf' c data' salt' n) := by
  rw [generatePssL, generatePssL]
  refine Same.bind (same_hashPieces hJ hb hc (.cons rfl (.cons hd (.cons hs .nil)))) fun H H' hH => Same.bind (same_mgf hJ hb hc hH _) fun m m' hm => ?_
  rw [hm, hs]
  refine Same.bind (Same.rd hm _) fun _ _ _ => Same.bind (Same.wr hm _ _ _) fun m m' hm => Same.bind (R := SL) (Same.loop _ hm fun i m m' hm => ?_) fun m m' hm => ?_
  · rw [hm]
    exact Same.bind (Same.rd hm _) fun _ _ _ => Same.bind (Same.rd hs _) fun _ _ _ => Same.wr hm _ _ _
  · refine Same.bind (Same.emit (by rw [hm])) fun _ _ _ => Same.pure ?_
    simp only [SL, List.length_append, hm, hH]

end

/-! ### conversions -/

theorem res_ofBytes (bits : Nat) (data : List Byte) : (bnOfBytesL bits data).res = .ok (bnOfBytes bits data) ∧ (bnOfBytes bits data).length = bnN bits :=
  loopL_fold _ (fun v : List U32 => v.length = bnN bits) List.length_replicate fun i hi v hv => by
    have h4 : i / 4 < bnN bits := by omega
    rw [ofByteL, rd_bind 0#8 (by omega), rd_bind 0#32 (by omega), wrL_in _ (by omega)]
    exact ⟨rfl, by rw [List.length_set, hv]⟩

theorem same_ofBytes {view : Obs → Obs} (bits : Nat) {data data' : List Byte} (hd : SL data data') : Same view SL (bnOfBytesL bits data) (bnOfBytesL bits data') := by
  rw [bnOfBytesL, bnOfBytesL, hd]
  exact Same.loop _ rfl fun i v v' hv => Same.bind (Same.rd hd _) fun _ _ _ => Same.bind (Same.rd hv _) fun _ _ _ => Same.wr hv _ _ _

theorem asBytes_length (v : List U32) : (bnAsBytes v).length = 4 * v.length := by
  induction v with
  | nil => rfl
  | cons w v ih =>
    rw [bnAsBytes, List.flatMap_cons, List.length_append]
    show 4 + (bnAsBytes v).length = _
    rw [ih, List.length_cons]; omega

theorem res_asBytes (v : List U32) : (bnAsBytesL v).res = .ok (bnAsBytes v) := by
  rw [bnAsBytesL, res_ok_bind (res_idle _ fun i => .addr i)]; rfl

theorem same_asBytes {view : Obs → Obs} {v v' : List U32} (h : SL v v') : Same view SL (bnAsBytesL v) (bnAsBytesL v') := by
  rw [bnAsBytesL, bnAsBytesL, h]
  exact Same.bind (R := fun _ _ => True) (Same.loop _ trivial fun _ _ _ _ => Same.emit rfl) fun _ _ _ => Same.pure (by rw [SL, asBytes_length, asBytes_length, h])

theorem res_reverse (v : List Byte) : (reverseL v).res = .ok v.reverse := by
  rw [reverseL, res_ok_bind (res_sweep _)]; rfl

theorem same_reverse {view : Obs → Obs} {v v' : List Byte} (h : SL v v') : Same view SL (reverseL v) (reverseL v') := by
  rw [reverseL, reverseL, h]
  exact Same.bind (same_sweep _) fun _ _ _ => Same.pure (by rw [SL, List.length_reverse, List.length_reverse, h])

theorem res_strip : ∀ v : List Byte, (stripZerosL v).res = stripZeros v
  | [] => rfl
  | [a] => by
    rw [stripZerosL, emit_bind, emit_bind, stripZeros]
    by_cases h : a = 0#8
    · rw [if_pos h, if_pos h]; rfl
    · rw [if_neg h, if_neg h]; rfl
  | a :: b :: t => by
    rw [stripZerosL, emit_bind, emit_bind, stripZeros]
    by_cases h : a = 0#8
    · rw [if_pos h, emit_bind, emit_bind]
      by_cases h2 : b &&& 0x80#8 = 0#8
      · rw [if_pos h2, if_pos ⟨h, h2⟩]; exact res_strip (b :: t)
      · rw [if_neg h2, if_neg fun g => h2 g.2]; rfl
    · rw [if_neg h, if_neg fun g => h g.1]; rfl

theorem strip_length : ∀ (v r : List Byte), stripZeros v = .ok r → r.length ≤ v.length
  | [], _, h => (nomatch h)
  | [a], r, h => by
    rw [stripZeros] at h
    by_cases h0 : a = 0#8
    · rw [if_pos h0] at h; exact (nomatch h)
    · rw [if_neg h0] at h; rw [← Except.ok.inj h]
  | a :: b :: t, r, h => by
    rw [stripZeros] at h
    by_cases h0 : a = 0#8 ∧ b &&& 0x80#8 = 0#8
    · rw [if_pos h0] at h
      exact Nat.le_succ_of_le (strip_length _ _ h)
    · rw [if_neg h0] at h; rw [← Except.ok.inj h]

theorem same_strip {view : Obs → Obs} : ∀ (v v' r r' : List Byte), SL v v' → stripZeros v = .ok r → stripZeros v' = .ok r' → r.length = r'.length →
    (r.head? = some 0#8 ↔ r'.head? = some 0#8) → Same view SL (stripZerosL v) (stripZerosL v')
  | [], _, _, _, _, h, _, _, _ => (nomatch h)
  | _ :: _, [], _, _, _, _, h, _, _ => (nomatch h)
  | [_], _ :: _ :: _, _, _, hl, _, _, _, _ => (nomatch hl)
  | _ :: _ :: _, [_], _, _, hl, _, _, _, _ => (nomatch hl)
  | [a], [a'], r, r', _, h, h', _, _ => by
    rw [stripZeros] at h h'
    have h0 : a ≠ 0#8 := fun e => by rw [if_pos e] at h; exact (nomatch h)
    have h0' : a' ≠ 0#8 := fun e => by rw [if_pos e] at h'; exact (nomatch h')
    rw [stripZerosL, stripZerosL, if_neg h0, if_neg h0', decide_eq_false h0, decide_eq_false h0']
    exact Same.bind (Same.emit rfl) fun _ _ _ => Same.bind (Same.emit rfl) fun _ _ _ => Same.pure rfl
  | a :: b :: t, a' :: b' :: t', r, r', hl, h, h', hr, hh => by
    have ht : SL t t' := Nat.succ.inj (Nat.succ.inj hl)
    rw [stripZeros] at h h'
    rw [stripZerosL, stripZerosL, ht]
    refine Same.bind (Same.emit rfl) fun _ _ _ => ?_
    by_cases c : a = 0#8 ∧ b &&& 0x80#8 = 0#8 <;> by_cases c' : a' = 0#8 ∧ b' &&& 0x80#8 = 0#8
    · rw [if_pos c] at h
      rw [if_pos c'] at h'
      rw [decide_eq_true c.1, decide_eq_true c'.1, if_pos c.1, if_pos c'.1, decide_eq_true c.2, decide_eq_true c'.2, if_pos c.2, if_pos c'.2]
      exact Same.bind (Same.emit rfl) fun _ _ _ => Same.bind (Same.emit rfl) fun _ _ _ => Same.bind (Same.emit rfl) fun _ _ _ =>
        same_strip (b :: t) (b' :: t') r r' (Nat.succ.inj hl) h h' hr hh
    · rw [if_pos c] at h
      rw [if_neg c'] at h'
      have := strip_length _ _ h
      rw [hr, ← Except.ok.inj h'] at this
      simp only [List.length_cons] at this
      have ht : t.length = t'.length := ht
      omega
    · rw [if_neg c] at h
      rw [if_pos c'] at h'
      have := strip_length _ _ h'
      rw [← hr, ← Except.ok.inj h] at this
      simp only [List.length_cons] at this
      have ht : t.length = t'.length := ht
      omega
    · rw [if_neg c] at h
      rw [if_neg c'] at h'
      rw [← Except.ok.inj h, ← Except.ok.inj h'] at hh
      have ha : a = 0#8 ↔ a' = 0#8 := by
        constructor
        · intro e; exact Option.some.inj (hh.mp (congrArg some e))
        · intro e; exact Option.some.inj (hh.mpr (congrArg some e))
      by_cases e : a = 0#8
      · have e' := ha.mp e
        have n : ¬ b &&& 0x80#8 = 0#8 := fun g => c ⟨e, g⟩
        have n' : ¬ b' &&& 0x80#8 = 0#8 := fun g => c' ⟨e', g⟩
        rw [decide_eq_true e, decide_eq_true e', if_pos e, if_pos e', decide_eq_false n, decide_eq_false n', if_neg n, if_neg n']
        exact Same.bind (Same.emit rfl) fun _ _ _ => Same.bind (Same.emit rfl) fun _ _ _ => Same.bind (Same.emit rfl) fun _ _ _ => Same.pure hl
      · have e' : ¬ a' = 0#8 := fun g => e (ha.mpr g)
        rw [decide_eq_false e, decide_eq_false e', if_neg e, if_neg e']
        exact Same.bind (Same.emit rfl) fun _ _ _ => Same.pure hl

/-! ### signatures -/

/-- `Same.bind` with the results at hand. -/
theorem Same.bindRes {α β γ δ : Type} {view : Obs → Obs} {R : α → β → Prop} {S : γ → δ → Prop} {x : Leak α} {y : Leak β} {f : α → Leak γ} {g : β → Leak δ} (h : Same view R x y)
    (hf : ∀ a b, x.res = .ok a → y.res = .ok b → R a b → Same view S (f a) (g b)) : Same view S (x >>= f) (y >>= g) :=
  Same.bind (h.and (P := fun a => x.res = .ok a) (Q := fun b => y.res = .ok b) (fun _ h => h) fun _ h => h) fun a b h => hf a b h.2.1 h.2.2 h.1

theorem Same.ofId {α β : Type} {view : Obs → Obs} {R : α → β → Prop} {x : Leak α} {y : Leak β} (h : Same id R x y) : Same view R x y := by
  refine ⟨?_, h.2⟩
  have := h.1
  rw [List.map_id, List.map_id] at this
  rw [this]

theorem res_signPkcs1 {J : Junk} (hJ : JunkOk J) (N : Nat) (k : RsaPriv) (c : HashClass) (data : List Byte) :
    (signPkcs1L J (zeroBuf c) N k c data).res = signPkcs1 N k c data := by
  rw [signPkcs1L, res_bind, res_pkcs1 hJ, signPkcs1]
  refine congrArg (pkcs1 c data (k.actualN / 8) >>= ·) (funext fun hash => ?_)
  rw [res_ok_bind (res_reverse _), res_ok_bind (res_ofBytes _ _).1, res_bind, res_rsadp]
  refine congrArg (rsadp N k (bnOfBytes N hash.reverse) >>= ·) (funext fun r => ?_)
  rw [res_ok_bind (res_asBytes _), res_bind, res_strip]
  cases stripZeros (bnAsBytes r).reverse with
  | error e => rfl
  | ok s => rw [ok_bind, res_ok_bind (res_sweep _)]; rfl

theorem res_signPss {J : Junk} (hJ : JunkOk J) (N : Nat) (k : RsaPriv) (c : HashClass) (message salt : List Byte) :
    (signPssL J (zeroBuf c) N k c message salt).res = signPss N k c message salt := by
  rw [signPssL, res_bind, res_generatePss hJ, signPss]
  refine congrArg (generatePss c message salt (k.actualN / 8) >>= ·) (funext fun p => ?_)
  rw [res_bind, res_rd]
  refine congrArg (rd p 0 >>= ·) (funext fun a => ?_)
  rw [res_bind, res_wr]
  refine congrArg (wr p 0 (a &&& 0x7F#8) >>= ·) (funext fun p => ?_)
  rw [res_ok_bind (res_reverse _), res_ok_bind (res_ofBytes _ _).1, res_bind, res_rsadp]
  refine congrArg (rsadp N k (bnOfBytes N p.reverse) >>= ·) (funext fun r => ?_)
  rw [res_ok_bind (res_asBytes _), res_reverse]
  rfl

section
variable {J J' : Junk} (hJ : SameJunk J J') {buf buf' : List Byte} (hb : SL buf buf') {c : HashClass} (hc : c ≠ .crc32)
variable {N : Nat} {k k' : RsaPriv} (hk : SameMont N k.s k'.s) (hd : SL k.d k'.d) (ha : k.actualN / 8 = k'.actualN / 8)
include hJ hb hc hk hd ha

theorem same_signPss {message message' salt salt' : List Byte} (hm : SL message message') (hs : SL salt salt') :
    Same blank SL (signPssL J buf N k c message salt) (signPssL J' buf' N k' c message' salt') := by
  rw [signPssL, signPssL, ha]
  refine Same.bind (Same.ofId (same_generatePss hJ hb hc hm hs _)) fun _ _ h => Same.bind (Same.rd h _) fun _ _ _ => Same.bind (Same.wr h _ _ _) fun _ _ h =>
    Same.bind (same_reverse h) fun _ _ h => Same.bind (same_ofBytes _ h) fun _ _ h => Same.bind (same_rsadp N hk hd h) fun _ _ h => Same.bind (same_asBytes h.sl) fun _ _ h =>
    same_reverse ?_
  simp only [SL, resize, List.length_append, List.length_take, List.length_replicate, h]

theorem same_signPkcs1 {data data' sig sig' : List Byte} (hm : SL data data') (h1 : (signPkcs1L J buf N k c data).res = .ok sig)
    (h2 : (signPkcs1L J' buf' N k' c data').res = .ok sig') (hl : sig.length = sig'.length) (hz : sig.head? = some 0#8 ↔ sig'.head? = some 0#8) :
    Same blank SL (signPkcs1L J buf N k c data) (signPkcs1L J' buf' N k' c data') := by
  rw [signPkcs1L] at h1 h2 ⊢
  rw [signPkcs1L]
  rw [ha] at h1 ⊢
  refine Same.bindRes (Same.ofId (same_pkcs1 hJ hb hc hm _)) fun p p' e e' h => ?_
  rw [res_ok_bind e, res_ok_bind (res_reverse _)] at h1
  rw [res_ok_bind e', res_ok_bind (res_reverse _)] at h2
  refine Same.bindRes (same_reverse h) fun q q' e e' h => ?_
  rw [res_reverse] at e e'
  rw [Except.ok.inj e] at h1
  rw [Except.ok.inj e'] at h2
  refine Same.bindRes (same_ofBytes _ h) fun m m' e e' h => Same.bindRes (same_rsadp N hk hd h) fun r r' g g' h => Same.bindRes (same_asBytes h.sl) fun s s' f f' h => ?_
  rw [res_ok_bind e, res_ok_bind g, res_ok_bind f, res_bind, res_strip] at h1
  rw [res_ok_bind e', res_ok_bind g', res_ok_bind f', res_bind, res_strip] at h2
  cases t : stripZeros s.reverse with
  | error x => rw [t] at h1; exact (nomatch h1)
  | ok v =>
    cases t' : stripZeros s'.reverse with
    | error x => rw [t'] at h2; exact (nomatch h2)
    | ok v' =>
      rw [t, ok_bind, res_ok_bind (res_sweep _)] at h1
      rw [t', ok_bind, res_ok_bind (res_sweep _)] at h2
      have i1 : v = sig := Except.ok.inj h1
      have i2 : v' = sig' := Except.ok.inj h2
      refine Same.bind (same_strip s.reverse s'.reverse v v' (by rw [SL, List.length_reverse, List.length_reverse, h]) t t' (by rw [i1, i2, hl]) (by rw [i1, i2]; exact hz))
        fun a b h => ?_
      rw [h]
      exact Same.bind (same_sweep _) fun _ _ _ => Same.pure h

end

end Verif.Proof
