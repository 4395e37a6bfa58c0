import Verif.Proof.LeakKdf
import Verif.Proof.LeakGcmSame

/-! Runs of the hash functions, HMAC, HKDF and ChaCha20 with the same events. -/

namespace Verif.Proof

open Verif.Model

variable {view : Obs → Obs}

theorem Same.touch (n : Nat) : Same view (fun _ _ => True) (Model.touch n) (Model.touch n) := ⟨rfl, trivial⟩

theorem Same.copy {d d' : List Byte} (hd : SL d d') (off : Nat) {s s' : List Byte} (hs : SL s s') : Same view SL (copyL d off s) (copyL d' off s') := by
  refine ⟨?_, ?_⟩
  · show List.map view [.addr off, .addr s.length] = List.map view [.addr off, .addr s'.length]
    rw [hs]
  · have e : ∀ d s : List Byte, (copyL d off s).res = if off + s.length ≤ d.length then .ok (overwrite d off s) else .error .ub := fun _ _ => rfl
    rw [e, e]
    rw [← hs, ← hd]
    by_cases h : off + s.length ≤ d.length
    · rw [if_pos h, if_pos h]
      show (overwrite d off s).length = (overwrite d' off s').length
      rw [overwrite_length h, overwrite_length (by rw [← hs, ← hd]; exact h), hd]
    · rw [if_neg h, if_neg h]

/-! ### block hashes -/

/-- A block hash whose events depend on the length of the block only. -/
structure CtBlock {A : BlockAlg} (L L' : BlockAlgL A) : Prop where
  compress : ∀ h h' chunk chunk', SL chunk chunk' → Same id (fun _ _ => True) (L.compress h chunk) (L'.compress h' chunk')
  out : ∀ h h', Same id SL (L.out h) (L'.out h')

theorem same_md5Compress {chunk chunk' : List Byte} (hc : SL chunk chunk') (h h' : Md5H) : Same view (fun _ _ => True) (md5CompressL h chunk) (md5CompressL h' chunk') :=
  Same.bind (Same.touch _) fun _ _ _ => Same.bind (R := fun _ _ => True) (Same.loop _ trivial fun _ _ _ _ =>
    Same.bind (Same.emit rfl) fun _ _ _ => Same.bind (Same.emit rfl) fun _ _ _ => Same.bind (Same.emit rfl) fun _ _ _ =>
    Same.bind (Same.rd hc _) fun _ _ _ => Same.bind (Same.rd hc _) fun _ _ _ => Same.bind (Same.rd hc _) fun _ _ _ => Same.bind (Same.rd hc _) fun _ _ _ =>
    Same.bind (Same.rd rfl _) fun _ _ _ => Same.bind (Same.rd rfl _) fun _ _ _ => Same.pure trivial)
  fun _ _ _ => Same.bind (Same.touch _) fun _ _ _ => Same.pure trivial

theorem same_sha1W {junk junk' : List U32} (hj : SL junk junk') {chunk chunk' : List Byte} (hc : SL chunk chunk') : Same view SL (sha1WL junk chunk) (sha1WL junk' chunk') :=
  Same.bind (R := SL) (Same.loop _ hj fun _ _ _ hw => Same.bind (R := fun _ _ => True) (Same.loop _ trivial fun _ _ _ _ => Same.bind (Same.rd hc _) fun _ _ _ => Same.pure trivial)
    fun _ _ _ => Same.wr hw _ _ _)
  fun _ _ hw => Same.loop _ hw fun _ _ _ hw => Same.bind (Same.rd hw _) fun _ _ _ => Same.bind (Same.rd hw _) fun _ _ _ => Same.bind (Same.rd hw _) fun _ _ _ =>
    Same.bind (Same.rd hw _) fun _ _ _ => Same.wr hw _ _ _

theorem same_sha1Compress {junk junk' : List U32} (hj : SL junk junk') {chunk chunk' : List Byte} (hc : SL chunk chunk') (h h' : Sha1H) :
    Same view (fun _ _ => True) (sha1CompressL junk h chunk) (sha1CompressL junk' h' chunk') :=
  Same.bind (same_sha1W hj hc) fun _ _ hw => Same.bind (Same.touch _) fun _ _ _ => Same.bind (R := fun _ _ => True)
    (Same.loop _ trivial fun _ _ _ _ => Same.bind (Same.rd hw _) fun _ _ _ => Same.pure trivial)
  fun _ _ _ => Same.bind (Same.emit rfl) fun _ _ _ => Same.bind (Same.emit rfl) fun _ _ _ => Same.bind (Same.emit rfl) fun _ _ _ => Same.bind (Same.touch _) fun _ _ _ => Same.pure trivial

theorem same_sha256W {junk junk' : List U32} (hj : SL junk junk') {chunk chunk' : List Byte} (hc : SL chunk chunk') : Same view SL (sha256WL junk chunk) (sha256WL junk' chunk') :=
  Same.bind (R := SL) (Same.loop _ hj fun _ _ _ hw => Same.bind (Same.rd hc _) fun _ _ _ => Same.bind (Same.rd hc _) fun _ _ _ => Same.bind (Same.rd hc _) fun _ _ _ =>
    Same.bind (Same.rd hc _) fun _ _ _ => Same.wr hw _ _ _)
  fun _ _ hw => Same.loop _ hw fun _ _ _ hw => Same.bind (Same.rd hw _) fun _ _ _ => Same.bind (Same.rd hw _) fun _ _ _ => Same.bind (Same.rd hw _) fun _ _ _ =>
    Same.bind (Same.rd hw _) fun _ _ _ => Same.wr hw _ _ _

theorem same_sha256Compress {junk junk' : List U32} (hj : SL junk junk') {chunk chunk' : List Byte} (hc : SL chunk chunk') (h h' : Sha2H 32) :
    Same view (fun _ _ => True) (sha256CompressL junk h chunk) (sha256CompressL junk' h' chunk') :=
  Same.bind (same_sha256W hj hc) fun _ _ hw => Same.bind (Same.touch _) fun _ _ _ => Same.bind (R := fun _ _ => True)
    (Same.loop _ trivial fun _ _ _ _ => Same.bind (Same.rd rfl _) fun _ _ _ => Same.bind (Same.rd hw _) fun _ _ _ => Same.pure trivial)
  fun _ _ _ => Same.bind (Same.touch _) fun _ _ _ => Same.pure trivial

theorem same_sha512W {junk junk' : List U64} (hj : SL junk junk') {chunk chunk' : List Byte} (hc : SL chunk chunk') : Same view SL (sha512WL junk chunk) (sha512WL junk' chunk') :=
  Same.bind (R := SL) (Same.loop _ hj fun _ _ _ hw => Same.bind (Same.rd hc _) fun _ _ _ => Same.bind (Same.rd hc _) fun _ _ _ => Same.bind (Same.rd hc _) fun _ _ _ =>
    Same.bind (Same.rd hc _) fun _ _ _ => Same.bind (Same.rd hc _) fun _ _ _ => Same.bind (Same.rd hc _) fun _ _ _ => Same.bind (Same.rd hc _) fun _ _ _ =>
    Same.bind (Same.rd hc _) fun _ _ _ => Same.wr hw _ _ _)
  fun _ _ hw => Same.loop _ hw fun _ _ _ hw => Same.bind (Same.rd hw _) fun _ _ _ => Same.bind (Same.rd hw _) fun _ _ _ => Same.bind (Same.rd hw _) fun _ _ _ =>
    Same.bind (Same.rd hw _) fun _ _ _ => Same.wr hw _ _ _

theorem same_sha512Compress {junk junk' : List U64} (hj : SL junk junk') {chunk chunk' : List Byte} (hc : SL chunk chunk') (h h' : Sha2H 64) :
    Same view (fun _ _ => True) (sha512CompressL junk h chunk) (sha512CompressL junk' h' chunk') :=
  Same.bind (same_sha512W hj hc) fun _ _ hw => Same.bind (Same.touch _) fun _ _ _ => Same.bind (R := fun _ _ => True)
    (Same.loop _ trivial fun _ _ _ _ => Same.bind (Same.rd rfl _) fun _ _ _ => Same.bind (Same.rd hw _) fun _ _ _ => Same.pure trivial)
  fun _ _ _ => Same.bind (Same.touch _) fun _ _ _ => Same.pure trivial

theorem same_outLoops (words size : Nat) : Same view (fun _ _ => True) (outLoopsL words size) (outLoopsL words size) :=
  Same.loop _ trivial fun _ _ _ _ => Same.loop _ trivial fun _ _ _ _ => Same.bind (Same.emit rfl) fun _ _ _ => Same.emit rfl

theorem take_length {n : Nat} {a b : List Byte} (h : a.length = b.length) : SL (a.take n) (b.take n) := by rw [SL, List.length_take, List.length_take, h]

theorem md5Out_length (h : Md5H) : (md5Out h).length = 16 := by
  simp only [md5Out, List.length_flatMap, List.length_map, List.length_range, List.map_cons, List.map_nil, List.sum_cons, List.sum_nil, Nat.reduceAdd]
theorem sha1Out_length (h : Sha1H) : (sha1Out h).length = 20 := by
  simp only [sha1Out, outBE32, List.length_flatMap, List.length_map, List.length_range, List.map_cons, List.map_nil, List.sum_cons, List.sum_nil, Nat.reduceAdd]
theorem sha256Out_length (h : Sha2H 32) : (sha256Out h).length = 32 := by
  simp only [sha256Out, outBE32, List.length_flatMap, List.length_map, List.length_range, List.map_cons, List.map_nil, List.sum_cons, List.sum_nil, Nat.reduceAdd]
theorem sha512Out_length (h : Sha2H 64) : (sha512Out h).length = 64 := by
  simp only [sha512Out, outBE64, List.length_flatMap, List.length_map, List.length_range, List.map_cons, List.map_nil, List.sum_cons, List.sum_nil, Nat.reduceAdd]

theorem md5_ct : CtBlock md5L md5L where
  compress h h' _ _ hc := same_md5Compress hc h h'
  out _ _ := Same.bind (same_outLoops _ _) fun _ _ _ => Same.pure ((md5Out_length _).trans (md5Out_length _).symm)

theorem sha1_ct {junk junk' : List U32} (hj : SL junk junk') : CtBlock (sha1L junk) (sha1L junk') where
  compress h h' _ _ hc := same_sha1Compress hj hc h h'
  out _ _ := Same.bind (same_outLoops _ _) fun _ _ _ => Same.pure ((sha1Out_length _).trans (sha1Out_length _).symm)

theorem sha224_ct {junk junk' : List U32} (hj : SL junk junk') : CtBlock (sha224L junk) (sha224L junk') where
  compress h h' _ _ hc := same_sha256Compress hj hc h h'
  out _ _ := Same.bind (same_outLoops _ _) fun _ _ _ => Same.bind (Same.emit rfl) fun _ _ _ => Same.pure (take_length ((sha256Out_length _).trans (sha256Out_length _).symm))

theorem sha256_ct {junk junk' : List U32} (hj : SL junk junk') : CtBlock (sha256L junk) (sha256L junk') where
  compress h h' _ _ hc := same_sha256Compress hj hc h h'
  out _ _ := Same.bind (same_outLoops _ _) fun _ _ _ => Same.pure ((sha256Out_length _).trans (sha256Out_length _).symm)

theorem sha384_ct {junk junk' : List U64} (hj : SL junk junk') : CtBlock (sha384L junk) (sha384L junk') where
  compress h h' _ _ hc := same_sha512Compress hj hc h h'
  out _ _ := Same.bind (same_outLoops _ _) fun _ _ _ => Same.bind (Same.emit rfl) fun _ _ _ => Same.pure (take_length ((sha512Out_length _).trans (sha512Out_length _).symm))

theorem sha512_ct {junk junk' : List U64} (hj : SL junk junk') : CtBlock (sha512L junk) (sha512L junk') where
  compress h h' _ _ hc := same_sha512Compress hj hc h h'
  out _ _ := Same.bind (same_outLoops _ _) fun _ _ _ => Same.pure ((sha512Out_length _).trans (sha512Out_length _).symm)

/-- Two states of a block hash after the same number of bytes -/
def SameState {A : BlockAlg} (s s' : BlockState A) : Prop := SL s.chunk s'.chunk ∧ s.msglength = s'.msglength

section
variable {A : BlockAlg} {L L' : BlockAlgL A}

theorem same_blockLoop (E : CtBlock L L') : ∀ (k : Nat) (s s' : BlockState A) (rest rest' : List Byte), rest.length < k → SL rest rest' → SameState s s' →
    Same id SameState (blockLoopL L s rest) (blockLoopL L' s' rest') := by
  intro k
  induction k with
  | zero =>
    intro s s' rest rest' hk hr hs
    exact absurd hk (Nat.not_lt_zero _)
  | succ k ih =>
    intro s s' rest rest' hk hr hs
    have hB := A.Bpos
    rw [blockLoopL, blockLoopL]
    refine Same.ite (by rw [hr]) (fun hl => ?_) fun hl => ?_
    · refine Same.bind (Same.emit rfl) fun _ _ _ => Same.bind (Same.copy hs.1 _ (by rw [SL, List.length_take, List.length_take, hr])) fun c c' hc =>
        Same.bind (E.compress _ _ _ _ hc) fun h h' _ => ?_
      exact ih _ _ _ _ (by rw [List.length_drop]; omega) (by rw [SL, List.length_drop, List.length_drop, hr]) ⟨hc, hs.2⟩
    · refine Same.bind (Same.emit rfl) fun _ _ _ => Same.bind (Same.emit (by rw [hr])) fun _ _ _ => Same.ite (by rw [hr]) (fun _ => ?_) fun _ => Same.pure hs
      exact Same.bind (Same.copy hs.1 _ hr) fun c c' hc => Same.pure ⟨hc, hs.2⟩

theorem same_blockAdd (E : CtBlock L L') {s s' : BlockState A} (hs : SameState s s') {data data' : List Byte} (hd : SL data data') :
    Same id SameState (blockAddL L s data) (blockAddL L' s' data') := by
  rw [blockAddL, blockAddL]
  dsimp only
  rw [hs.2, hd]
  refine Same.bind (Same.emit rfl) fun _ _ _ => Same.ite Iff.rfl (fun _ => ?_) fun _ => same_blockLoop E _ _ _ _ _ (Nat.lt_succ_self _) hd ⟨hs.1, rfl⟩
  refine Same.bind (Same.emit rfl) fun _ _ _ => Same.bind (Same.copy hs.1 _ (by rw [SL, List.length_take, List.length_take, hd])) fun c c' hc =>
    Same.bind (Same.emit rfl) fun _ _ _ => Same.ite Iff.rfl (fun _ => Same.pure ⟨hc, rfl⟩) fun _ => ?_
  exact Same.bind (E.compress _ _ _ _ hc) fun h h' _ => same_blockLoop E _ _ _ _ _ (Nat.lt_succ_self _) (by rw [SL, List.length_drop, List.length_drop, hd]) ⟨hc, rfl⟩

theorem same_blockData (E : CtBlock L L') {s s' : BlockState A} (hs : SameState s s') : Same id SL (blockDataL L s) (blockDataL L' s') := by
  rw [blockDataL, blockDataL]
  rw [hs.2]
  refine Same.bind (same_blockAdd E hs rfl) fun c c' hc => ?_
  refine Same.bind (R := SL) ?_ fun f f' hf => Same.bind (same_blockAdd E hc hf) fun c c' _ => E.out _ _
  refine Same.bind (R := fun p p' : List Byte × U64 => SL p.1 p'.1) (Same.loop _ rfl fun _ _ _ hp => ?_) fun _ _ hp => Same.pure hp
  exact Same.bind (Same.wr hp _ _ _) fun _ _ hw => Same.pure hw

theorem same_blockHash (E : CtBlock L L') (n : Nat) {buf buf' : List Byte} (hb : SL buf buf') {data data' : List Byte} (hd : SL data data') :
    Same id SL (do touch n; let s ← blockAddL L (BlockState.new A buf) data; blockDataL L s : Leak (List Byte))
      (do touch n; let s ← blockAddL L' (BlockState.new A buf') data'; blockDataL L' s : Leak (List Byte)) := by
  have h0 : SameState (BlockState.new A buf) (BlockState.new A buf') := ⟨hb, rfl⟩
  refine Same.bind (R := fun _ _ => True) (Same.touch n) fun _ _ _ => ?_
  exact Same.bind (same_blockAdd E h0 hd) fun _ _ hs => same_blockData E hs

end

/-! ### SHA-3 -/

theorem same_xorAt {s s' : List U64} (hs : SL s s') (i : Nat) (v v' : U64) : Same view SL (xorAtL s i v) (xorAtL s' i v') :=
  Same.bind (Same.rd hs _) fun _ _ _ => Same.wr hs _ _ _

theorem same_theta {junk junk' : List U64} (hj : SL junk junk') {s s' : List U64} (hs : SL s s') : Same view SL (sha3ThetaL junk s) (sha3ThetaL junk' s') :=
  Same.bind (R := SL) (Same.loop _ hj fun _ _ _ hc => Same.bind (Same.wr hc _ _ _) fun _ _ hc => Same.loop _ hc fun _ _ _ hc =>
    Same.bind (Same.rd hs _) fun _ _ _ => same_xorAt hc _ _ _) fun _ _ hc =>
  Same.bind (R := SL) (Same.loop _ hj fun _ _ _ hd => Same.bind (Same.rd hc _) fun _ _ _ => Same.bind (Same.rd hc _) fun _ _ _ => Same.wr hd _ _ _) fun _ _ hd =>
  Same.loop _ hs fun _ _ _ hs => Same.bind (Same.rd hd _) fun _ _ _ => Same.bind (same_xorAt hs _ _ _) fun _ _ hs => Same.bind (same_xorAt hs _ _ _) fun _ _ hs =>
    Same.bind (same_xorAt hs _ _ _) fun _ _ hs => Same.bind (same_xorAt hs _ _ _) fun _ _ hs => same_xorAt hs _ _ _

theorem same_chain : ∀ (ops : List (Nat × Nat × Nat × Nat)) (s s' : List U64), SL s s' → Same view SL (sha3ChainL ops s) (sha3ChainL ops s')
  | [], _, _, hs => Same.pure hs
  | (_, _, _, _) :: ops, _, _, hs => Same.bind (Same.rd hs _) fun _ _ _ => Same.bind (Same.wr hs _ _ _) fun _ _ hs => same_chain ops _ _ hs

theorem same_rhoPi {s s' : List U64} (hs : SL s s') : Same view SL (sha3RhoPiL s) (sha3RhoPiL s') :=
  Same.bind (Same.rd hs _) fun _ _ _ => Same.bind (same_chain _ _ _ hs) fun _ _ hs => Same.wr hs _ _ _

theorem same_chi {junk junk' : List U64} (hj : SL junk junk') {s s' : List U64} (hs : SL s s') : Same view SL (sha3ChiL junk s) (sha3ChiL junk' s') :=
  Same.loop _ hs fun _ _ _ hs => Same.bind (R := SL) (Same.loop _ hj fun _ _ _ hc => Same.bind (Same.rd hs _) fun _ _ _ => Same.bind (Same.rd hs _) fun _ _ _ =>
    Same.bind (Same.rd hs _) fun _ _ _ => Same.wr hc _ _ _) fun _ _ hc => Same.loop _ hs fun _ _ _ hs => Same.bind (Same.rd hc _) fun _ _ _ => Same.wr hs _ _ _

theorem same_process {junk junk' : List U64} (hj : SL junk junk') {s s' : List U64} (hs : SL s s') : Same view SL (sha3ProcessL junk s) (sha3ProcessL junk' s') :=
  Same.loop _ hs fun _ _ _ hs => Same.bind (same_theta hj hs) fun _ _ hs => Same.bind (same_rhoPi hs) fun _ _ hs => Same.bind (same_chi hj hs) fun _ _ hs =>
    Same.bind (Same.rd rfl _) fun _ _ _ => same_xorAt hs _ _ _

theorem same_bytes {junk junk' : List U64} (hj : SL junk junk') (chunksize : Nat) : ∀ (data data' : List Byte) (s s' : List U64) (offset : Nat), SL data data' → SL s s' →
    Same view SL (sha3BytesL junk chunksize data s offset) (sha3BytesL junk' chunksize data' s' offset)
  | [], [], _, _, _, _, hs => Same.bind (Same.emit rfl) fun _ _ _ => Same.pure hs
  | [], _ :: _, _, _, _, hd, _ => nomatch hd
  | _ :: _, [], _, _, _, hd, _ => nomatch hd
  | _ :: data, _ :: data', s, s', offset, hd, hs => by
    have hd' : SL data data' := Nat.succ.inj hd
    rw [sha3BytesL, sha3BytesL]
    refine Same.bind (Same.emit rfl) fun _ _ _ => Same.bind (same_xorAt hs _ _ _) fun _ _ hs => Same.bind (Same.emit rfl) fun _ _ _ => Same.ite Iff.rfl (fun _ => ?_) fun _ => ?_
    · exact Same.bind (same_process hj hs) fun _ _ hs => same_bytes hj chunksize data data' _ _ _ hd' hs
    · exact same_bytes hj chunksize data data' _ _ _ hd' hs

theorem same_sha3Hash {junk junk' : List U64} (hj : SL junk junk') (size : Nat) {data data' : List Byte} (hd : SL data data') :
    Same view SL (do let s ← sha3AddL junk size Sha3State.new data; sha3DataL junk size s : Leak (List Byte))
      (do let s ← sha3AddL junk' size Sha3State.new data'; sha3DataL junk' size s) := by
  refine Same.bind (R := fun s s' : Sha3State => SL s.s s'.s ∧ s.msglength = s'.msglength)
    (Same.bind (same_bytes hj _ _ _ _ _ _ hd rfl) fun _ _ hs => Same.pure ⟨hs, by rw [hd]⟩) fun s s' hs => ?_
  rw [sha3DataL, sha3DataL]
  rw [hs.2]
  exact Same.bind (same_xorAt hs.1 _ _ _) fun _ _ hs => Same.bind (same_xorAt hs _ _ _) fun _ _ hs => Same.bind (same_process hj hs) fun _ _ hs =>
    Same.loop _ rfl fun _ _ _ hr => Same.bind (Same.rd hs _) fun _ _ _ => Same.wr hr _ _ _

/-! ### all classes but CRC32 -/

/-- The uninitialised arrays have the same sizes. -/
structure SameJunk (J J' : Junk) : Prop where
  w32 : SL J.w32 J'.w32
  w64 : SL J.w64 J'.w64
  w5 : SL J.w5 J'.w5

variable {J J' : Junk} (hJ : SameJunk J J') {buf buf' : List Byte} (hb : SL buf buf') {c : HashClass} (hc : c ≠ .crc32)
include hJ hb hc

theorem same_hashOf {data data' : List Byte} (hd : SL data data') : Same id SL (hashOfL J buf c data) (hashOfL J' buf' c data') := by
  have h64 : SL (J.w32.take 64) (J'.w32.take 64) := by rw [SL, List.length_take, List.length_take, hJ.w32]
  cases c with
  | md5 => exact same_blockHash md5_ct _ hb hd
  | sha1 => exact same_blockHash (sha1_ct hJ.w32) _ hb hd
  | sha2_224 => exact same_blockHash (sha224_ct h64) _ hb hd
  | sha2_256 => exact same_blockHash (sha256_ct h64) _ hb hd
  | sha2_384 => exact same_blockHash (sha384_ct hJ.w64) _ hb hd
  | sha2_512 => exact same_blockHash (sha512_ct hJ.w64) _ hb hd
  | sha3_224 => exact same_sha3Hash hJ.w5 _ hd
  | sha3_256 => exact same_sha3Hash hJ.w5 _ hd
  | sha3_384 => exact same_sha3Hash hJ.w5 _ hd
  | sha3_512 => exact same_sha3Hash hJ.w5 _ hd
  | crc32 => exact absurd rfl hc

/-! ### HMAC and HKDF -/

omit hJ hb hc in
theorem resizeTo_length (v : List Byte) (n : Nat) : (resizeTo v n).length = n := by
  rw [resizeTo, List.length_append, List.length_take, List.length_replicate]; omega

omit hJ hb hc in
theorem same_sweep (n : Nat) : Same view (fun _ _ => True) (sweepL n) (sweepL n) := Same.loop _ trivial fun _ _ _ _ => Same.emit rfl

theorem same_hmac {text text' key key' : List Byte} (ht : SL text text') (hk : SL key key') : Same id SL (hmacL J buf c text key) (hmacL J' buf' c text' key') := by
  rw [hmacL, hmacL, hk, ht]
  refine Same.bind (Same.emit rfl) fun _ _ _ => Same.bind (Same.emit rfl) fun _ _ _ => Same.bind (Same.emit rfl) fun _ _ _ => Same.bind (Same.emit rfl) fun _ _ _ =>
    Same.bind (same_sweep _) fun _ _ _ => Same.bind (same_sweep _) fun _ _ _ => Same.bind (Same.emit rfl) fun _ _ _ => ?_
  refine Same.bind (same_hashOf hJ hb hc ?_) fun x y h => Same.bind (Same.emit (by rw [h])) fun _ _ _ => same_hashOf hJ hb hc ?_
  · rw [SL, List.length_append, List.length_append, List.length_map, List.length_map, resizeTo_length, resizeTo_length, ht]
  · rw [SL, List.length_append, List.length_append, List.length_map, List.length_map, resizeTo_length, resizeTo_length, h]

theorem same_expandLoop {prk prk' info info' : List Byte} (hp : SL prk prk') (hi : SL info info') (len : Nat) : ∀ (k : Nat) (b b' t t' : List Byte) (n : Nat), SL b b' → SL t t' →
    Same id SL (hkdfExpandLoopL J buf c prk info len k b t n) (hkdfExpandLoopL J' buf' c prk' info' len k b' t' n)
  | 0, b, b', _, _, _, h, _ => by
    refine ⟨rfl, ?_⟩
    rw [hkdfExpandLoopL, hkdfExpandLoopL, res_ofOut, res_ofOut]
    rw [← h]
    by_cases hl : b.length < len
    · rw [if_pos hl, if_pos hl]
    · rw [if_neg hl, if_neg hl]; exact h
  | k + 1, b, b', t, t', n, h, ht => by
    rw [hkdfExpandLoopL, hkdfExpandLoopL]
    refine Same.bind (Same.emit (by rw [h])) fun _ _ _ => Same.ite (by rw [h]) (fun _ => ?_) fun _ => Same.pure h
    refine Same.bind (Same.emit (by rw [hi])) fun _ _ _ => Same.bind (Same.emit rfl) fun _ _ _ =>
      Same.bind (same_hmac hJ hb hc (by simp only [SL, List.length_append, ht, hi, List.length_singleton]) hp) fun x y hxy => ?_
    refine Same.bind (Same.emit (by rw [hxy])) fun _ _ _ => ?_
    exact same_expandLoop hp hi len k _ _ _ _ _ (by rw [SL, List.length_append, List.length_append, h, hxy]) hxy

theorem same_expand {prk prk' info info' : List Byte} (hp : SL prk prk') (hi : SL info info') (len : Nat) :
    Same id SL (hkdfExpandL J buf c prk info len) (hkdfExpandL J' buf' c prk' info' len) :=
  Same.bind (same_expandLoop hJ hb hc hp hi len _ _ _ _ _ _ rfl rfl) fun _ _ _ => Same.bind (Same.emit rfl) fun _ _ _ =>
    Same.pure (by rw [SL, resizeTo_length, resizeTo_length])

theorem same_expandLabel {prk prk' label label' context context' : List Byte} (hp : SL prk prk') (hl : SL label label') (hx : SL context context') (len : Nat) :
    Same id SL (hkdfExpandLabelL J buf c prk label context len) (hkdfExpandLabelL J' buf' c prk' label' context' len) :=
  Same.bind (Same.emit (by rw [hl])) fun _ _ _ => Same.bind (Same.emit (by rw [hx])) fun _ _ _ =>
    same_expand hJ hb hc hp (by simp only [SL, hkdfLabel, List.length_append, List.length_singleton, hl, hx]) len

theorem same_traffic {data data' hash hash' : List Byte} (hd : SL data data') (hh : SL hash hash') (client handshake : Bool) :
    Same id SL (getTrafficSecretL J buf c data hash client handshake) (getTrafficSecretL J' buf' c data' hash' client handshake) :=
  Same.bind (Same.emit rfl) fun _ _ _ => Same.bind (Same.emit rfl) fun _ _ _ => same_expandLabel hJ hb hc hd rfl hh _

theorem same_keyIv (keysize ivsize : Nat) {data data' hash hash' : List Byte} (hd : SL data data') (hh : SL hash hash') (client handshake : Bool) :
    Same id (fun p p' => SL p.1 p'.1 ∧ SL p.2 p'.2) (getKeyIvL J buf c keysize ivsize data hash client handshake) (getKeyIvL J' buf' c keysize ivsize data' hash' client handshake) :=
  Same.bind (same_traffic hJ hb hc hd hh client handshake) fun _ _ ht => Same.bind (same_expandLabel hJ hb hc ht rfl rfl _) fun _ _ hk =>
    Same.bind (same_expandLabel hJ hb hc ht rfl rfl _) fun _ _ hi => Same.pure ⟨hk, hi⟩

theorem same_finished {data data' hash hash' : List Byte} (hd : SL data data') (hh : SL hash hash') (client : Bool) :
    Same id SL (getFinishedKeyL J buf c data hash client) (getFinishedKeyL J' buf' c data' hash' client) :=
  Same.bind (same_traffic hJ hb hc hd hh client true) fun _ _ ht => same_expandLabel hJ hb hc ht rfl rfl _

theorem same_handshake {shared shared' : List Byte} (hs : SL shared shared') : Same id SL (hkdfHandshakeSecretL J buf c shared) (hkdfHandshakeSecretL J' buf' c shared') :=
  Same.bind (same_hmac hJ hb hc rfl rfl) fun _ _ he => Same.bind (same_hashOf hJ hb hc rfl) fun _ _ h0 => Same.bind (same_expandLabel hJ hb hc he rfl h0 _) fun _ _ hd =>
    same_hmac hJ hb hc hs hd

theorem same_master {data data' : List Byte} (hd : SL data data') : Same id SL (hkdfMasterSecretL J buf c data) (hkdfMasterSecretL J' buf' c data') :=
  Same.bind (same_hashOf hJ hb hc rfl) fun _ _ h0 => Same.bind (same_expandLabel hJ hb hc hd rfl h0 _) fun _ _ hd => same_hmac hJ hb hc rfl hd

omit hJ hb hc

/-! ### ChaCha20 -/

theorem same_half {s s' : List U32} (hs : SL s s') (a b d r : Nat) : Same view SL (ccHalfL s a b d r) (ccHalfL s' a b d r) :=
  Same.bind (Same.rd hs _) fun _ _ _ => Same.bind (Same.rd hs _) fun _ _ _ => Same.bind (Same.wr hs _ _ _) fun _ _ hs => Same.bind (Same.rd hs _) fun _ _ _ =>
    Same.bind (Same.rd hs _) fun _ _ _ => Same.bind (Same.wr hs _ _ _) fun _ _ hs => Same.bind (Same.rd hs _) fun _ _ _ => Same.wr hs _ _ _

theorem same_quarter {s s' : List U32} (hs : SL s s') (a b c d : Nat) : Same view SL (ccQuarterL s a b c d) (ccQuarterL s' a b c d) :=
  Same.bind (same_half hs _ _ _ _) fun _ _ hs => Same.bind (same_half hs _ _ _ _) fun _ _ hs => Same.bind (same_half hs _ _ _ _) fun _ _ hs => same_half hs _ _ _ _

theorem same_double {s s' : List U32} (hs : SL s s') : Same view SL (ccDoubleL s) (ccDoubleL s') :=
  Same.bind (same_quarter hs _ _ _ _) fun _ _ hs => Same.bind (same_quarter hs _ _ _ _) fun _ _ hs => Same.bind (same_quarter hs _ _ _ _) fun _ _ hs =>
  Same.bind (same_quarter hs _ _ _ _) fun _ _ hs => Same.bind (same_quarter hs _ _ _ _) fun _ _ hs => Same.bind (same_quarter hs _ _ _ _) fun _ _ hs =>
  Same.bind (same_quarter hs _ _ _ _) fun _ _ hs => same_quarter hs _ _ _ _

/-- Two states of the stream cipher after the same number of bytes -/
def SameCc (g g' : ChaCha20) : Prop := SL g.state g'.state ∧ SL g.buffer g'.buffer ∧ g.offset = g'.offset

theorem same_generate {g g' : ChaCha20} (hg : SL g.state g'.state ∧ SL g.buffer g'.buffer) : Same view SameCc (ccGenerateL g) (ccGenerateL g') :=
  Same.bind (Same.touch _) fun _ _ _ => Same.bind (R := SL) (Same.loop _ hg.1 fun _ _ _ hs => same_double hs) fun _ _ hs =>
  Same.bind (R := fun p p' : List U32 × List Byte => SL p.1 p'.1 ∧ SL p.2 p'.2) (Same.loop _ ⟨hs, hg.2⟩ fun _ _ _ hp =>
    Same.bind (Same.rd hp.1 _) fun _ _ _ => Same.bind (Same.rd hg.1 _) fun _ _ _ => Same.bind (Same.wr hp.1 _ _ _) fun _ _ hs =>
    Same.bind (R := SL) (Same.loop _ hp.2 fun _ _ _ hb => Same.bind (Same.rd hs _) fun _ _ _ => Same.wr hb _ _ _) fun _ _ hb => Same.pure ⟨hs, hb⟩)
  fun _ _ hp => Same.bind (Same.rd hg.1 _) fun _ _ _ => Same.bind (Same.wr hg.1 _ _ _) fun _ _ hs => Same.pure ⟨hs, hp.2, rfl⟩

theorem same_ccNew {junk junk' key key' nonce nonce' : List Byte} (hj : SL junk junk') (hk : SL key key') (hn : SL nonce nonce') :
    Same view SameCc (ccNewL junk key nonce) (ccNewL junk' key' nonce') := by
  rw [ccNewL, ccNewL]
  refine Same.bind (Same.emit (by rw [hk])) fun _ _ _ => Same.ite (by rw [hk]) (fun _ => ⟨rfl, rfl⟩) fun _ => ?_
  refine Same.bind (Same.emit (by rw [hn])) fun _ _ _ => Same.ite (by rw [hn]) (fun _ => ⟨rfl, rfl⟩) fun _ => ?_
  exact Same.bind (Same.touch _) fun _ _ _ => Same.bind (Same.touch _) fun _ _ _ => Same.bind (Same.touch _) fun _ _ _ => same_generate ⟨rfl, hj⟩

theorem same_crypt : ∀ (data data' : List Byte) (g g' : ChaCha20), SL data data' → SameCc g g' →
    Same view (fun p p' => SL p.1 p'.1 ∧ SameCc p.2 p'.2) (ccCryptL g data) (ccCryptL g' data')
  | [], [], _, _, _, hg => Same.bind (Same.emit rfl) fun _ _ _ => Same.pure ⟨rfl, hg⟩
  | [], _ :: _, _, _, hd, _ => nomatch hd
  | _ :: _, [], _, _, hd, _ => nomatch hd
  | _ :: data, _ :: data', g, g', hd, hg => by
    have hd' : SL data data' := Nat.succ.inj hd
    rw [ccCryptL, ccCryptL, hg.2.2]
    refine Same.bind (Same.emit rfl) fun _ _ _ => Same.bind (Same.rd hg.2.1 _) fun _ _ _ => Same.bind (Same.emit rfl) fun _ _ _ => ?_
    refine Same.ite Iff.rfl (fun _ => ?_) fun _ => ?_
    · exact Same.bind (same_generate ⟨hg.1, hg.2.1⟩) fun _ _ hg => Same.bind (same_crypt data data' _ _ hd' hg) fun p p' hp =>
        Same.pure ⟨by rw [SL, List.length_cons, List.length_cons, hp.1], hp.2⟩
    · refine Same.bind (R := SameCc) (Same.pure ⟨hg.1, hg.2.1, rfl⟩) fun _ _ hg => ?_
      exact Same.bind (same_crypt data data' _ _ hd' hg) fun p p' hp => Same.pure ⟨by rw [SL, List.length_cons, List.length_cons, hp.1], hp.2⟩

end Verif.Proof
