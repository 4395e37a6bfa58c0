import Verif.Proof.LeakHashSame
import Verif.Props.SideChannelGcm
import Verif.Props.ChaCha20

/-! C126-C128: what an observer of the events learns from hashing, HMAC, HKDF, ChaCha20 and CRC32. -/

namespace Verif.Props

open Verif.Model Verif.Spec Verif.Proof

/-! ### the hash functions -/

/-- C126, memory: with every array access checked, hashing never leaves an array and gives the digest of the standard, whatever the buffer of the object and the local arrays
held before. -/
theorem C126_memory (J : Junk) (h32 : J.w32.length = 80) (h64 : J.w64.length = 80) (h5 : J.w5.length = 5) (c : HashClass) (buf : List Byte) (hb : buf.length = bufSize c)
    (data : List Byte) (hd : data.length < 2 ^ 61) : (hashOfL J buf c data).res = .ok (Spec.digest c data) := by
  rw [res_hashOf' ⟨h32, h64, h5⟩ c buf hb, digest_correct c buf hb data hd]

/-- A case that meets the hypotheses of `C126_memory`. -/
example := C126_memory ⟨List.replicate 80 1#32, List.replicate 80 2#64, List.replicate 5 3#64⟩ rfl rfl rfl .sha2_256 (List.replicate 64 9#8) rfl [1#8, 2#8] (by decide)

/-- C126: the events of hashing, including the choices, are the same for all messages of a length, for all classes but CRC32. -/
theorem C126 (J J' : Junk) (h32 : J.w32.length = J'.w32.length) (h64 : J.w64.length = J'.w64.length) (h5 : J.w5.length = J'.w5.length) (buf buf' : List Byte)
    (hb : buf.length = buf'.length) (c : HashClass) (hc : c ≠ .crc32) (data data' : List Byte) (hd : data.length = data'.length) :
    (hashOfL J buf c data).trace = (hashOfL J' buf' c data').trace :=
  trace_id (same_hashOf ⟨h32, h64, h5⟩ hb hc hd)

/-- Contents of the uninitialised arrays for the examples -/
def someJunk : Junk := ⟨List.replicate 80 7#32, List.replicate 80 9#64, List.replicate 5 3#64⟩

example : someJunk.w32.length = 80 ∧ someJunk.w64.length = 80 ∧ someJunk.w5.length = 5 ∧ (List.replicate (bufSize .sha2_256) 1#8).length = bufSize .sha2_256 ∧
    HashClass.sha2_256 ≠ .crc32 ∧ (ascii "secret").length = (ascii "public").length := by decide +kernel

/-- There are many events: 16 for the words of the message and as many more for the rest of the schedule and the rounds. -/
example : 100 < (sha256WL (List.replicate 64 0#32) (List.replicate 64 0#8)).trace.length := by decide +kernel

/-- C126 for HMAC: the events are the same for all keys and messages of the same lengths, and the run with checked accesses computes the MAC. -/
theorem C126_hmac (J J' : Junk) (h32 : J.w32.length = 80) (h64 : J.w64.length = 80) (h5 : J.w5.length = 5) (h32' : J'.w32.length = 80) (h64' : J'.w64.length = 80)
    (h5' : J'.w5.length = 5) (c : HashClass) (hc : c ≠ .crc32) (text text' key key' : List Byte) (ht : text.length = text'.length) (hk : key.length = key'.length) :
    (hmacL J (zeroBuf c) c text key).trace = (hmacL J' (zeroBuf c) c text' key').trace ∧ (hmacL J (zeroBuf c) c text key).res = .ok (Model.hmac c text key) :=
  ⟨trace_id (same_hmac ⟨h32.trans h32'.symm, h64.trans h64'.symm, h5.trans h5'.symm⟩ rfl hc ht hk), res_hmac ⟨h32, h64, h5⟩ c text key⟩

/-- A case that meets the hypotheses of `C126_hmac`. -/
example := C126_hmac ⟨List.replicate 80 1#32, List.replicate 80 2#64, List.replicate 5 3#64⟩ ⟨List.replicate 80 4#32, List.replicate 80 5#64, List.replicate 5 6#64⟩ rfl rfl rfl rfl rfl rfl
  .sha3_256 (by decide) [1#8, 2#8] [3#8, 4#8] [5#8] [6#8] rfl rfl

/-- C126 for the key schedule: the events of deriving the handshake secret, the master secret, keys and IVs and the finished key are the same for all secrets and
transcript hashes of the same lengths, and the runs with checked accesses compute these values. -/
theorem C126_hkdf (J J' : Junk) (h32 : J.w32.length = 80) (h64 : J.w64.length = 80) (h5 : J.w5.length = 5) (h32' : J'.w32.length = 80) (h64' : J'.w64.length = 80)
    (h5' : J'.w5.length = 5) (c : HashClass) (hc : c ≠ .crc32) (secret secret' hash hash' : List Byte) (hs : secret.length = secret'.length)
    (hh : hash.length = hash'.length) (keysize ivsize : Nat) (client handshake : Bool) :
    ((hkdfHandshakeSecretL J (zeroBuf c) c secret).trace = (hkdfHandshakeSecretL J' (zeroBuf c) c secret').trace ∧
      (hkdfHandshakeSecretL J (zeroBuf c) c secret).res = hkdfHandshakeSecret c secret) ∧
    ((hkdfMasterSecretL J (zeroBuf c) c secret).trace = (hkdfMasterSecretL J' (zeroBuf c) c secret').trace ∧
      (hkdfMasterSecretL J (zeroBuf c) c secret).res = hkdfMasterSecret c secret) ∧
    ((getKeyIvL J (zeroBuf c) c keysize ivsize secret hash client handshake).trace = (getKeyIvL J' (zeroBuf c) c keysize ivsize secret' hash' client handshake).trace ∧
      (getKeyIvL J (zeroBuf c) c keysize ivsize secret hash client handshake).res = getKeyIv c keysize ivsize secret hash client handshake) ∧
    ((getFinishedKeyL J (zeroBuf c) c secret hash client).trace = (getFinishedKeyL J' (zeroBuf c) c secret' hash' client).trace ∧
      (getFinishedKeyL J (zeroBuf c) c secret hash client).res = getFinishedKey c secret hash client) := by
  have hJ : SameJunk J J' := ⟨h32.trans h32'.symm, h64.trans h64'.symm, h5.trans h5'.symm⟩
  have hO : JunkOk J := ⟨h32, h64, h5⟩
  exact ⟨⟨trace_id (same_handshake hJ rfl hc hs), res_handshake hO c secret⟩, ⟨trace_id (same_master hJ rfl hc hs), res_master hO c secret⟩,
    ⟨trace_id (same_keyIv hJ rfl hc keysize ivsize hs hh client handshake), res_keyIv hO c keysize ivsize secret hash client handshake⟩,
    ⟨trace_id (same_finished hJ rfl hc hs hh client), res_finished hO c secret hash client⟩⟩

/-- A case that meets the hypotheses of `C126_hkdf`. -/
example := C126_hkdf ⟨List.replicate 80 1#32, List.replicate 80 2#64, List.replicate 5 3#64⟩ ⟨List.replicate 80 4#32, List.replicate 80 5#64, List.replicate 5 6#64⟩ rfl rfl rfl rfl rfl rfl
  .sha2_256 (by decide) (List.replicate 32 1#8) (List.replicate 32 2#8) (List.replicate 32 3#8) (List.replicate 32 4#8) rfl rfl 16 12 true false

/-! ### ChaCha20 -/

/-- Calls of `Encrypt` and `Decrypt`, which have the same body, one after another -/
def ccPiecesL (g : ChaCha20) : List (List Byte) → Leak (List (List Byte))
  | [] => pure []
  | d :: ds => do
    let r ← ccCryptL g d
    let rs ← ccPiecesL r.2 ds
    return r.1 :: rs

/-- A `ChaCha20` object that is constructed and used for several pieces of data -/
def ccStreamL (junk key nonce : List Byte) (pieces : List (List Byte)) : Leak (List (List Byte)) := do
  let g ← ccNewL junk key nonce
  ccPiecesL g pieces

theorem same_pieces : ∀ (ps qs : List (List Byte)) (g g' : ChaCha20), ps.map List.length = qs.map List.length → SameCc g g' →
    Same id (fun _ _ => True) (ccPiecesL g ps) (ccPiecesL g' qs)
  | [], [], _, _, _, _ => Same.pure trivial
  | [], _ :: _, _, _, h, _ => nomatch h
  | _ :: _, [], _, _, h, _ => nomatch h
  | p :: ps, q :: qs, g, g', h, hg => by
    obtain ⟨h1, h2⟩ := List.cons.inj h
    exact Same.bind (same_crypt p q g g' h1 hg) fun _ _ hr => Same.bind (same_pieces ps qs _ _ h2 hr.2) fun _ _ _ => Same.pure trivial

/-- C127: the events of ChaCha20, including the choices, are the same for all keys, nonces and data of the same lengths. -/
theorem C127 (junk junk' key key' nonce nonce' : List Byte) (ps ps' : List (List Byte)) (hj : junk.length = junk'.length) (hk : key.length = key'.length)
    (hn : nonce.length = nonce'.length) (hp : ps.map List.length = ps'.map List.length) :
    (ccStreamL junk key nonce ps).trace = (ccStreamL junk' key' nonce' ps').trace :=
  trace_id (R := fun _ _ => True) (Same.bind (same_ccNew hj hk hn) fun _ _ hg => same_pieces ps ps' _ _ hp hg)

theorem pieces_res {key nonce : List Byte} : ∀ (ps : List (List Byte)) (g : ChaCha20) (pos : Nat), Cc.At key nonce g pos →
    ∃ outs, (ccPiecesL g ps).res = .ok outs ∧ outs.flatten = Spec.ChaCha.crypt key 1 nonce pos ps.flatten ∧ outs.map List.length = ps.map List.length
  | [], _, _, _ => ⟨[], rfl, rfl, rfl⟩
  | p :: ps, g, pos, h => by
    obtain ⟨g1, e1, h1⟩ := Cc.encrypt_at p h
    rw [← res_crypt p g h.state.1 (by rw [h.buffer, Cc.block_length])] at e1
    obtain ⟨outs, e2, f2, l2⟩ := pieces_res ps g1 _ h1
    refine ⟨Spec.ChaCha.crypt key 1 nonce pos p :: outs, ?_, ?_, ?_⟩
    · rw [ccPiecesL, res_ok_bind e1, res_ok_bind e2]; rfl
    · rw [List.flatten_cons, f2, List.flatten_cons, crypt_append]
    · rw [List.map_cons, List.map_cons, l2, crypt_length]

/-- C127, memory: with every array access checked, the stream cipher never leaves an array and xors the key stream of RFC 8439, whatever the buffer held before. -/
theorem C127_memory (junk key nonce : List Byte) (hj : junk.length = 64) (hk : key.length = 32) (hn : nonce.length = 12) (ps : List (List Byte)) :
    ∃ outs, (ccStreamL junk key nonce ps).res = .ok outs ∧ outs.flatten = Spec.ChaCha.crypt key 1 nonce 0 ps.flatten ∧ outs.map List.length = ps.map List.length := by
  obtain ⟨g, e, h⟩ := Cc.new_at hj hk hn
  rw [← res_ccNew hj] at e
  obtain ⟨outs, e2, f2, l2⟩ := pieces_res ps g 0 h
  exact ⟨outs, by rw [ccStreamL, res_ok_bind e, e2], f2, l2⟩

example : (List.replicate 64 5#8).length = 64 ∧ (List.replicate 32 1#8).length = (List.replicate 32 2#8).length ∧ (List.replicate 12 1#8).length = (List.replicate 12 2#8).length ∧
    [ascii "attack", ascii "now"].map List.length = [ascii "retire", ascii "far"].map List.length := by decide +kernel

/-! ### CRC32 -/

/-- C128, full claim: the events of `CRC32` do not depend on the data. -/
def C128_claim : Prop := ∀ (J : Junk) (buf data data' : List Byte), data.length = data'.length → (hashOfL J buf .crc32 data).trace = (hashOfL J buf .crc32 data').trace

theorem low8 : ∀ i : Fin 8, (0xFF#32).getLsbD i = true := by decide

theorem crc_trace : ∀ (data data' : List Byte) (h : U32) (t t' : List Obs), (crcAddL h data).trace ++ t = (crcAddL h data').trace ++ t' → data = data'
  | [], [], _, _, _, _ => rfl
  | [], b :: d, h, t, t', e => by
    rw [crcAddL, crcAddL, trace_bind (res_emit _), trace_bind (res_emit _)] at e
    exact absurd (List.cons.inj e).1 (by decide)
  | b :: d, [], h, t, t', e => by
    rw [crcAddL, crcAddL, trace_bind (res_emit _), trace_bind (res_emit _)] at e
    exact absurd (List.cons.inj e).1 (by decide)
  | b :: d, b' :: d', h, t, t', e => by
    have hlt : ∀ x : U32, (x &&& 0xFF#32).toNat < crcTable.length := fun x => by
      rw [crcTable_length, BitVec.toNat_and]; exact Nat.lt_succ_of_le Nat.and_le_right
    rw [crcAddL, crcAddL, trace_bind (res_emit _), trace_bind (res_emit _), trace_bind (rdL_in 0#32 (hlt _)), trace_bind (rdL_in 0#32 (hlt _))] at e
    obtain ⟨_, e⟩ := List.cons.inj e
    obtain ⟨e1, e⟩ := List.cons.inj e
    have eb : b = b' := by
      have h1 := BitVec.eq_of_toNat_eq (Obs.addr.inj e1)
      have h2 : ∀ x : Byte, (h ^^^ x.setWidth 32) &&& 0xFF#32 = (h &&& 0xFF#32) ^^^ x.setWidth 32 := fun x => by
        ext i hi
        simp only [BitVec.getElem_and, BitVec.getElem_xor, BitVec.getElem_setWidth]
        by_cases h8 : i < 8
        · have : (0xFF#32)[i] = true := by rw [← BitVec.getLsbD_eq_getElem]; exact low8 ⟨i, h8⟩
          rw [this]; simp
        · rw [BitVec.getLsbD_of_ge x i (by omega)]; simp
      rw [h2, h2] at h1
      have h3 : b.setWidth 32 = b'.setWidth 32 := by
        have := congrArg ((h &&& 0xFF#32) ^^^ ·) h1
        simpa [← BitVec.xor_assoc] using this
      have h4 := congrArg (BitVec.setWidth 8) h3
      simpa using h4
    subst eb
    rw [crc_trace d d' _ t t' e]

/-- C128, what is true: two runs of `CRC32` have the same events only if they hash the same data. The indices into the table show every byte. -/
theorem C128_partial (J J' : Junk) (buf buf' data data' : List Byte) (h : (hashOfL J buf .crc32 data).trace = (hashOfL J' buf' .crc32 data').trace) : data = data' := by
  rw [hashOfL, hashOfL, trace_bind (res_crcAdd data _), trace_bind (res_crcAdd data' _)] at h
  exact crc_trace data data' _ _ _ h

/-- A case that meets the hypotheses of `C128_partial`. -/
example := fun J : Junk => C128_partial J J [] [] [1#8, 2#8] [1#8, 2#8] rfl

theorem C128_false : ¬ C128_claim := fun h => absurd (C128_partial _ _ _ _ _ _ (h someJunk [] (ascii "y") (ascii "n") rfl)) (by decide)

/-- The two messages of the refutation have the same length and different events. -/
example : (ascii "y").length = (ascii "n").length ∧ (crcAddL crcNew (ascii "y")).trace ≠ (crcAddL crcNew (ascii "n")).trace := by decide +kernel

/-- C128 for keys: with `HMAC<CRC32>` the events show the first eight bytes of the key and the whole message. -/
theorem C128_hmac (J : Junk) (text text' key key' : List Byte) (hk : key.length = key'.length) (hk8 : key.length ≤ 8)
    (h : (hmacL J [] .crc32 text key).trace = (hmacL J [] .crc32 text' key').trace) : key = key' ∧ text = text' := by
  have te : ∀ {β : Type} (o : Obs) (f : Unit → Leak β), (emit o >>= f).trace = o :: (f ()).trace := fun o f => rfl
  have ts : ∀ {β : Type} (n : Nat) (f : Unit → Leak β), (sweepL n >>= f).trace = (sweepL n).trace ++ (f ()).trace := fun n f => trace_bind (res_sweep n) f
  simp only [hmacL, ← hk, te, ts, List.cons.injEq, true_and, List.append_cancel_left_eq] at h
  obtain ⟨_, h⟩ := h
  have e : ∀ d : List Byte, (hashOfL J [] .crc32 d).res = .ok (crcData (crcAdd crcNew d)) := fun d => by
    rw [hashOfL, res_ok_bind (res_crcAdd d _)]; rfl
  have tc : ∀ d : List Byte, ∃ t, (hashOfL J [] .crc32 d).trace = (crcAddL crcNew d).trace ++ t := fun d => ⟨_, by
    rw [hashOfL]
    exact trace_bind (res_crcAdd d _) _⟩
  obtain ⟨t1, c1⟩ := tc ((resizeTo key (hashsize .crc32 * 2)).map (· ^^^ 0x36#8) ++ text)
  obtain ⟨t2, c2⟩ := tc ((resizeTo key' (hashsize .crc32 * 2)).map (· ^^^ 0x36#8) ++ text')
  rw [trace_bind (e _), trace_bind (e _), c1, c2, List.append_assoc, List.append_assoc] at h
  obtain ⟨h1, h2⟩ := List.append_inj (crc_trace _ _ _ _ _ h) (by rw [List.length_map, List.length_map, resizeTo_length, resizeTo_length])
  refine ⟨?_, h2⟩
  have h3 : resizeTo key 8 = resizeTo key' 8 := (List.map_injective_iff.mpr fun a b hab => by
    have := congrArg (· ^^^ 0x36#8) hab
    simpa [BitVec.xor_assoc] using this) h1
  rw [resizeTo, resizeTo, List.take_of_length_le hk8, List.take_of_length_le (hk ▸ hk8), hk] at h3
  exact List.append_cancel_right h3

/-- Two keys of four bytes -/
example : (ascii "key1").length = (ascii "key2").length ∧ (ascii "key1").length ≤ 8 := by decide +kernel

end Verif.Props
