import Verif.Proof.LeakHash
import Verif.Proof.Hkdf
import Verif.Proof.ChaCha20

/-! HMAC, HKDF and ChaCha20 with events and checked array accesses compute what the functions without events compute. -/

namespace Verif.Proof

open Verif.Model

/-- What the model without events takes the uninitialised buffer to hold. -/
def zeroBuf (c : HashClass) : List Byte := List.replicate (bufSize c) 0#8

variable {J : Junk} (hJ : JunkOk J) (c : HashClass)
include hJ

theorem res_hashOf (data : List Byte) : (hashOfL J (zeroBuf c) c data).res = .ok (hashOf c data) :=
  res_hashOf' hJ c _ List.length_replicate data

omit hJ in
theorem res_sweep (n : Nat) : (sweepL n).res = .ok () := by
  rw [sweepL, res_loop]
  obtain ⟨t, h, _⟩ := loop_inv (s := ()) (n := n) (body := fun _ i => (emit (.addr i)).res) (fun _ _ => True) trivial fun _ _ _ _ => ⟨(), rfl, trivial⟩
  exact h

theorem res_hmac (text key : List Byte) : (hmacL J (zeroBuf c) c text key).res = .ok (Model.hmac c text key) := by
  rw [hmacL, emit_bind, emit_bind, emit_bind, emit_bind]
  dsimp only
  rw [res_ok_bind (res_sweep _), res_ok_bind (res_sweep _), emit_bind, res_ok_bind (res_hashOf hJ c _), emit_bind, res_hashOf hJ c]
  rfl

theorem res_expandLoop (prk info : List Byte) (len : Nat) : ∀ (k : Nat) (buffer lastT : List Byte) (n : Nat),
    (hkdfExpandLoopL J (zeroBuf c) c prk info len k buffer lastT n).res = hkdfExpandLoop c prk info len k buffer lastT n
  | 0, _, _, _ => rfl
  | k + 1, buffer, lastT, n => by
    rw [hkdfExpandLoopL, emit_bind, hkdfExpandLoop]
    by_cases h : buffer.length < len
    · rw [if_pos h, if_pos h, emit_bind, emit_bind, res_ok_bind (res_hmac hJ c _ _), emit_bind]
      exact res_expandLoop prk info len k _ _ _
    · rw [if_neg h, if_neg h]; rfl

theorem res_expand (prk info : List Byte) (len : Nat) : (hkdfExpandL J (zeroBuf c) c prk info len).res = hkdfExpand c prk info len := by
  rw [hkdfExpandL, res_bind, res_expandLoop hJ]
  rfl

theorem res_expandLabel (prk label context : List Byte) (len : Nat) :
    (hkdfExpandLabelL J (zeroBuf c) c prk label context len).res = hkdfExpandLabel c prk label context len := by
  rw [hkdfExpandLabelL, emit_bind, emit_bind, res_expand hJ]
  rfl

theorem res_traffic (data hashSoFar : List Byte) (client handshake : Bool) :
    (getTrafficSecretL J (zeroBuf c) c data hashSoFar client handshake).res = getTrafficSecret c data hashSoFar client handshake := by
  rw [getTrafficSecretL, emit_bind, emit_bind]
  exact res_expandLabel hJ c _ _ _ _

theorem res_keyIv (keysize ivsize : Nat) (data hashSoFar : List Byte) (client handshake : Bool) :
    (getKeyIvL J (zeroBuf c) c keysize ivsize data hashSoFar client handshake).res = getKeyIv c keysize ivsize data hashSoFar client handshake := by
  rw [getKeyIvL, res_bind, res_traffic hJ, getKeyIv]
  refine congrArg (getTrafficSecret c data hashSoFar client handshake >>= ·) (funext fun t => ?_)
  rw [res_bind, res_expandLabel hJ]
  refine congrArg (hkdfExpandLabel c t (ascii "key") [] keysize >>= ·) (funext fun k => ?_)
  rw [res_bind, res_expandLabel hJ]
  rfl

theorem res_finished (data hashSoFar : List Byte) (client : Bool) :
    (getFinishedKeyL J (zeroBuf c) c data hashSoFar client).res = getFinishedKey c data hashSoFar client := by
  rw [getFinishedKeyL, res_bind, res_traffic hJ, getFinishedKey]
  exact congrArg (getTrafficSecret c data hashSoFar client true >>= ·) (funext fun t => res_expandLabel hJ c _ _ _ _)

omit hJ in
theorem hashOf_nil : hashOf c [] = hdata c (hnew0 c) := by rw [Hk.digest_empty, hashOf_eq c [] (by decide)]

theorem res_handshake (shared : List Byte) : (hkdfHandshakeSecretL J (zeroBuf c) c shared).res = hkdfHandshakeSecret c shared := by
  rw [hkdfHandshakeSecretL, hkdfExtractL]
  rw [res_ok_bind (res_hmac hJ c _ _), res_ok_bind (res_hashOf hJ c _), res_bind, res_expandLabel hJ, hashOf_nil, hkdfHandshakeSecret]
  refine congrArg (hkdfExpandLabel c (Model.hmac c (resizeTo [] (hashsize c)) (resizeTo [] (hashsize c))) (ascii "derived") (hdata c (hnew0 c)) (hashsize c) >>= ·)
    (funext fun d => ?_)
  rw [hkdfExtractL, res_hmac hJ]
  rfl

theorem res_master (data : List Byte) : (hkdfMasterSecretL J (zeroBuf c) c data).res = hkdfMasterSecret c data := by
  rw [hkdfMasterSecretL]
  rw [res_ok_bind (res_hashOf hJ c _), res_bind, res_expandLabel hJ, hashOf_nil, hkdfMasterSecret]
  refine congrArg (hkdfExpandLabel c data (ascii "derived") (hdata c (hnew0 c)) (hashsize c) >>= ·) (funext fun d => ?_)
  rw [hkdfExtractL, res_hmac hJ]
  rfl

omit hJ

/-! ### ChaCha20 -/

theorem res_half {s : List U32} (hs : s.length = 16) {a b d : Nat} (ha : a < 16) (hb : b < 16) (hd : d < 16) (r : Nat) :
    (ccHalfL s a b d r).res = .ok (ccHalf s a b d r) ∧ (ccHalf s a b d r).length = 16 := by
  rw [ccHalfL, rd_bind 0#32 (by omega), rd_bind 0#32 (by omega), wr_bind (by omega), rd_bind 0#32 (by rw [List.length_set]; omega),
    rd_bind 0#32 (by rw [List.length_set]; omega), wr_bind (by rw [List.length_set]; omega), rd_bind 0#32 (by rw [List.length_set, List.length_set]; omega),
    wrL_in _ (by rw [List.length_set, List.length_set]; omega)]
  exact ⟨rfl, by simp only [ccHalf, List.length_set, hs]⟩

theorem res_quarter {s : List U32} (hs : s.length = 16) {a b c d : Nat} (ha : a < 16) (hb : b < 16) (hc : c < 16) (hd : d < 16) :
    (ccQuarterL s a b c d).res = .ok (ccQuarter s a b c d) ∧ (ccQuarter s a b c d).length = 16 := by
  obtain ⟨h1, l1⟩ := res_half hs ha hb hd 16
  obtain ⟨h2, l2⟩ := res_half l1 hc hd hb 12
  obtain ⟨h3, l3⟩ := res_half l2 ha hb hd 8
  obtain ⟨h4, l4⟩ := res_half l3 hc hd hb 7
  rw [ccQuarterL, res_ok_bind h1, res_ok_bind h2, res_ok_bind h3, h4]
  exact ⟨rfl, l4⟩

theorem res_double {s : List U32} (hs : s.length = 16) : (ccDoubleL s).res = .ok (ccDouble s) ∧ (ccDouble s).length = 16 := by
  obtain ⟨h1, l1⟩ := res_quarter hs (a := 0) (b := 4) (c := 8) (d := 12) (by decide) (by decide) (by decide) (by decide)
  obtain ⟨h2, l2⟩ := res_quarter l1 (a := 1) (b := 5) (c := 9) (d := 13) (by decide) (by decide) (by decide) (by decide)
  obtain ⟨h3, l3⟩ := res_quarter l2 (a := 2) (b := 6) (c := 10) (d := 14) (by decide) (by decide) (by decide) (by decide)
  obtain ⟨h4, l4⟩ := res_quarter l3 (a := 3) (b := 7) (c := 11) (d := 15) (by decide) (by decide) (by decide) (by decide)
  obtain ⟨h5, l5⟩ := res_quarter l4 (a := 0) (b := 5) (c := 10) (d := 15) (by decide) (by decide) (by decide) (by decide)
  obtain ⟨h6, l6⟩ := res_quarter l5 (a := 1) (b := 6) (c := 11) (d := 12) (by decide) (by decide) (by decide) (by decide)
  obtain ⟨h7, l7⟩ := res_quarter l6 (a := 2) (b := 7) (c := 8) (d := 13) (by decide) (by decide) (by decide) (by decide)
  obtain ⟨h8, l8⟩ := res_quarter l7 (a := 3) (b := 4) (c := 9) (d := 14) (by decide) (by decide) (by decide) (by decide)
  rw [ccDoubleL, res_ok_bind h1, res_ok_bind h2, res_ok_bind h3, res_ok_bind h4, res_ok_bind h5, res_ok_bind h6, res_ok_bind h7, h8]
  exact ⟨rfl, l8⟩

theorem res_store {state : List U32} (hst : state.length = 16) {p : List U32 × List Byte} (h1 : p.1.length = 16) (h2 : p.2.length = 64) {n : Nat} (hn : n < 16) :
    (ccStoreL state p n).res = .ok (ccStore state p n) ∧ (ccStore state p n).1.length = 16 ∧ (ccStore state p n).2.length = 64 := by
  have hs : (p.1.set n (p.1.getD n 0#32 + state.getD n 0#32)).length = 16 := by rw [List.length_set, h1]
  have hl : (loopL 4 p.2 (fun b i => do
      let w ← rdL (p.1.set n (p.1.getD n 0#32 + state.getD n 0#32)) n
      wrL b (n * 4 + i) ((w >>> (8 * i)).setWidth 8))).res = .ok (ccStore state p n).2 ∧ (ccStore state p n).2.length = 64 :=
    loopL_fold (s := p.2) (n := 4) (fun b i => b.set (n * 4 + i) (((p.1.set n (p.1.getD n 0#32 + state.getD n 0#32)).getD n 0#32 >>> (8 * i)).setWidth 8))
      (fun b : List Byte => b.length = 64) h2 fun i hi b hb => ⟨by
        rw [rd_bind 0#32 (by omega)]
        exact wrL_in _ (by omega), by rw [List.length_set, hb]⟩
  rw [ccStoreL, rd_bind 0#32 (by omega), rd_bind 0#32 (by omega), wr_bind (by omega), res_ok_bind hl.1]
  exact ⟨rfl, hs, hl.2⟩

theorem res_generate {g : ChaCha20} (hs : g.state.length = 16) (hb : g.buffer.length = 64) :
    (ccGenerateL g).res = .ok (ccGenerate g) ∧ (ccGenerate g).state.length = 16 ∧ (ccGenerate g).buffer.length = 64 := by
  have h1 := loopL_fold (s := g.state) (n := 10) (body := fun s _ => ccDoubleL s) (fun s _ => ccDouble s) (fun s : List U32 => s.length = 16) hs fun _ _ s hs => res_double hs
  rw [ccGenerateL, res_ok_bind (res_touch _), res_ok_bind h1.1, ccGenerate]
  dsimp only
  generalize (List.range 10).foldl (fun s _ => ccDouble s) g.state = s at h1
  have h2 := loopL_fold (n := 16) (body := ccStoreL g.state) (ccStore g.state) (fun p : List U32 × List Byte => p.1.length = 16 ∧ p.2.length = 64)
    (s := (s, g.buffer)) ⟨h1.2, hb⟩ fun n hn p hp => res_store hs hp.1 hp.2 hn
  rw [res_ok_bind h2.1, rd_bind 0#32 (by omega), wr_bind (by omega)]
  exact ⟨by rw [res_pure], by rw [List.length_set, hs], h2.2.2⟩

theorem res_ccNew {junk : List Byte} (hj : junk.length = 64) (key nonce : List Byte) : (ccNewL junk key nonce).res = ccNew junk key nonce := by
  rw [ccNewL, emit_bind, ccNew]
  by_cases hk : key.length ≠ 32
  · rw [if_pos hk, if_pos hk]; rfl
  rw [if_neg hk, if_neg hk, emit_bind]
  by_cases hn : nonce.length ≠ 12
  · rw [if_pos hn, if_pos hn]; rfl
  rw [if_neg hn, if_neg hn, res_ok_bind (res_touch _), res_ok_bind (res_touch _), res_ok_bind (res_touch _)]
  exact (res_generate rfl hj).1

theorem res_crypt : ∀ (data : List Byte) (g : ChaCha20), g.state.length = 16 → g.buffer.length = 64 → (ccCryptL g data).res = ccEncrypt g data
  | [], _, _, _ => rfl
  | c :: data, g, hs, hb => by
    rw [ccCryptL, emit_bind, res_bind, res_rd, ccEncrypt, ccByte]
    cases rd g.buffer g.offset.toNat with
    | error e => rfl
    | ok k =>
      rw [ok_bind, ok_bind]
      dsimp only
      rw [emit_bind]
      by_cases h : g.offset + 1#8 = 64#8
      · rw [if_pos h, if_pos h]
        obtain ⟨h1, h2, h3⟩ := res_generate (g := { g with offset := g.offset + 1#8 }) hs hb
        rw [res_ok_bind h1, res_bind, res_crypt data _ h2 h3]
        rfl
      · rw [if_neg h, if_neg h]
        rw [res_ok_bind (res_pure _), res_bind, res_crypt data { g with offset := g.offset + 1#8 } hs hb]
        rfl

end Verif.Proof
