import Verif.Proof.LeakSign
import Verif.Proof.Random
import Verif.Props.SideChannelHash

/-! C145: what an observer of the branches and array accesses learns from a whole signature. -/

namespace Verif.Props

open Verif.Spec Verif.Model Verif.Proof

/-- The numbers of bits of two moduli give the same number of whole bytes. -/
def SameBytes (n n' : Nat) : Prop := ∃ b b', 2 ^ b ≤ n ∧ n < 2 ^ (b + 1) ∧ 2 ^ b' ≤ n' ∧ n' < 2 ^ (b' + 1) ∧ (b + 1) / 8 = (b' + 1) / 8

theorem actualN_eq {w n d b : Nat} {k : RsaPriv} (h : PrivOk w k n d) (h1 : 2 ^ b ≤ n) (h2 : n < 2 ^ (b + 1)) : k.actualN = b + 1 := by
  have a1 := (Nat.pow_lt_pow_iff_right (a := 2) (by decide)).mp (Nat.lt_of_le_of_lt h.lo h2)
  have a2 := (Nat.pow_lt_pow_iff_right (a := 2) (by decide)).mp (Nat.lt_of_le_of_lt h1 h.hi)
  omega

theorem actualN_same {w n n' d d' : Nat} {k k' : RsaPriv} (h : PrivOk w k n d) (h' : PrivOk w k' n' d') (hs : SameBytes n n') : k.actualN / 8 = k'.actualN / 8 := by
  obtain ⟨b, b', h1, h2, h3, h4, e⟩ := hs
  rw [actualN_eq h h1 h2, actualN_eq h' h3 h4, e]

/-- C145 for PSS: signing takes the same branches and accesses the same array indices for all private keys, all messages and all salts of the same lengths. `J` and
`J'` are what uninitialised arrays hold. -/
theorem C145_pss (w : Nat) (hw : 0 < w) (n n' d d' : List U32) (hn : n.length = w) (hn' : n'.length = w) (hd : d.length = w) (hd' : d'.length = w) (ho : value n % 2 = 1)
    (ho' : value n' % 2 = 1) (h1 : 1 < value n) (h1' : 1 < value n') (hs : SameBytes (value n) (value n')) (J J' : Junk) (h32 : J.w32.length = 80) (h64 : J.w64.length = 80)
    (h5 : J.w5.length = 5) (h32' : J'.w32.length = 80) (h64' : J'.w64.length = 80) (h5' : J'.w5.length = 5) (c : HashClass) (hc : c ≠ .crc32)
    (message message' salt salt' : List Byte) (hm : message.length = message'.length) (hl : salt.length = salt'.length) :
    ∃ k k', rsaPrivNew (32 * w) n d = .ok k ∧ rsaPrivNew (32 * w) n' d' = .ok k' ∧
      (signPssL J (zeroBuf c) (32 * w) k c message salt).res = signPss (32 * w) k c message salt ∧
      (signPssL J (zeroBuf c) (32 * w) k c message salt).trace.map blank = (signPssL J' (zeroBuf c) (32 * w) k' c message' salt').trace.map blank := by
  obtain ⟨k, e, _, kd, ok⟩ := rsaPrivNew_spec w hw n d hn hd ho h1
  obtain ⟨k', e', _, kd', ok'⟩ := rsaPrivNew_spec w hw n' d' hn' hd' ho' h1'
  exact ⟨k, k', e, e', res_signPss ⟨h32, h64, h5⟩ _ k c message salt,
    (same_signPss ⟨h32.trans h32'.symm, h64.trans h64'.symm, h5.trans h5'.symm⟩ rfl hc (sameMont ok.st ok'.st) (by rw [SL, kd, kd', hd, hd']) (actualN_same ok ok' hs)
      hm hl).trace⟩

/-- A case that meets the hypotheses of `C145_pss`. -/
example := fun d d' : U32 => C145_pss 1 (by decide) [187#32] [253#32] [d] [d'] rfl rfl rfl rfl (by decide) (by decide) (by decide) (by decide) ⟨7, 7, by decide, by decide, by decide, by decide, rfl⟩
  ⟨List.replicate 80 1#32, List.replicate 80 2#64, List.replicate 5 3#64⟩ ⟨List.replicate 80 4#32, List.replicate 80 5#64, List.replicate 5 6#64⟩ rfl rfl rfl rfl rfl rfl
  .sha2_256 (by decide) [1#8] [2#8] [3#8] [4#8] rfl rfl

/-- C145 for PKCS #1: the same, if the signatures have the same length and agree in whether they begin with a zero byte. Both are known to whoever gets the
signature. -/
theorem C145_pkcs1 (w : Nat) (hw : 0 < w) (n n' d d' : List U32) (hn : n.length = w) (hn' : n'.length = w) (hd : d.length = w) (hd' : d'.length = w) (ho : value n % 2 = 1)
    (ho' : value n' % 2 = 1) (h1 : 1 < value n) (h1' : 1 < value n') (hs : SameBytes (value n) (value n')) (J J' : Junk) (h32 : J.w32.length = 80) (h64 : J.w64.length = 80)
    (h5 : J.w5.length = 5) (h32' : J'.w32.length = 80) (h64' : J'.w64.length = 80) (h5' : J'.w5.length = 5) (c : HashClass) (hc : c ≠ .crc32)
    (data data' : List Byte) (hm : data.length = data'.length) :
    ∃ k k', rsaPrivNew (32 * w) n d = .ok k ∧ rsaPrivNew (32 * w) n' d' = .ok k' ∧
      (signPkcs1L J (zeroBuf c) (32 * w) k c data).res = signPkcs1 (32 * w) k c data ∧
      ∀ sig sig', signPkcs1 (32 * w) k c data = .ok sig → signPkcs1 (32 * w) k' c data' = .ok sig' → sig.length = sig'.length →
        (sig.head? = some 0#8 ↔ sig'.head? = some 0#8) →
        (signPkcs1L J (zeroBuf c) (32 * w) k c data).trace.map blank = (signPkcs1L J' (zeroBuf c) (32 * w) k' c data').trace.map blank := by
  obtain ⟨k, e, _, kd, ok⟩ := rsaPrivNew_spec w hw n d hn hd ho h1
  obtain ⟨k', e', _, kd', ok'⟩ := rsaPrivNew_spec w hw n' d' hn' hd' ho' h1'
  have hr := res_signPkcs1 (J := J) ⟨h32, h64, h5⟩ (32 * w) k c data
  have hr' := res_signPkcs1 (J := J') ⟨h32', h64', h5'⟩ (32 * w) k' c data'
  exact ⟨k, k', e, e', hr, fun sig sig' s s' hl hz =>
    (same_signPkcs1 ⟨h32.trans h32'.symm, h64.trans h64'.symm, h5.trans h5'.symm⟩ rfl hc (sameMont ok.st ok'.st) (by rw [SL, kd, kd', hd, hd']) (actualN_same ok ok' hs)
      hm (hr.trans s) (hr'.trans s') hl hz).trace⟩

/-- Moduli of 32 bits that meet the hypotheses; for a signature they must have more bits than the hash value. -/
example : SameBytes (value [0xFFFFFFFB#32]) (value [0x80000001#32]) ∧ value [0xFFFFFFFB#32] % 2 = 1 ∧ value [0x80000001#32] % 2 = 1 :=
  ⟨⟨31, 31, by decide +kernel, by decide +kernel, by decide +kernel, by decide +kernel, rfl⟩, by decide +kernel, by decide +kernel⟩

/-! ### the member function of the private key class -/

/-- The scheme numbers of the two kinds of signature: include/caligo/X509Certificate.h:102-118. -/
def isPkcs1 (scheme : Nat) : Prop := scheme = 0x0401 ∨ scheme = 0x0501 ∨ scheme = 0x0601

/-- The salt that is drawn for a scheme and the generator afterwards. -/
def saltFor (scheme : Nat) (rs : RandState) : List Byte × RandState :=
  if scheme = 0x0804 ∨ scheme = 0x0809 then genRandom8 32 rs
  else if scheme = 0x0805 ∨ scheme = 0x080a then genRandom8 48 rs
  else if scheme = 0x0806 ∨ scheme = 0x080b then genRandom8 64 rs
  else ([], rs)

theorem res_rsaSign {J : Junk} (hJ : JunkOk J) (k : RsaPriv) (scheme : Nat) (data : List Byte) (rs : RandState) :
    (rsaSignL J k scheme data (saltFor scheme rs).1).res.map (·, (saltFor scheme rs).2) = rsaSign k scheme data rs := by
  rw [rsaSignL, emit_bind, rsaSign, saltFor]
  have z (c : HashClass) : List.replicate (bufSize c) 0#8 = zeroBuf c := rfl
  simp only [z]
  by_cases a1 : scheme = 0x0401
  · subst a1
    simp only [if_true, Nat.reduceEqDiff, or_self, if_false, res_signPkcs1 hJ]
  by_cases a2 : scheme = 0x0501
  · subst a2
    simp only [if_true, Nat.reduceEqDiff, or_self, if_false, res_signPkcs1 hJ]
  by_cases a3 : scheme = 0x0601
  · subst a3
    simp only [if_true, Nat.reduceEqDiff, or_self, if_false, res_signPkcs1 hJ]
  rw [if_neg a1, if_neg a2, if_neg a3, if_neg a1, if_neg a2, if_neg a3]
  by_cases b1 : scheme = 0x0804 ∨ scheme = 0x0809
  · simp only [if_pos b1]
    rw [res_ok_bind (res_hashOf hJ _ data), res_signPss hJ]
  by_cases b2 : scheme = 0x0805 ∨ scheme = 0x080a
  · simp only [if_neg b1, if_pos b2]
    rw [res_ok_bind (res_hashOf hJ _ data), res_signPss hJ]
  by_cases b3 : scheme = 0x0806 ∨ scheme = 0x080b
  · simp only [if_neg b1, if_neg b2, if_pos b3]
    rw [res_ok_bind (res_hashOf hJ _ data), res_signPss hJ]
  simp only [if_neg b1, if_neg b2, if_neg b3]
  rfl

/-- C145 for `RsaPrivateKey::sign`: the run with events and checked accesses computes what the function computes, and for two keys whose moduli have the same
number of bytes and two messages of the same length it takes the same branches and accesses the same indices, except for what the lengths and first bytes of the two
signatures show if the scheme is PKCS #1. The salts are those that the generator gives in the states `rs` and `rs'`. -/
theorem C145_sign (n n' d d' : List U32) (hn : n.length = 128) (hn' : n'.length = 128) (hd : d.length = 128) (hd' : d'.length = 128) (ho : value n % 2 = 1)
    (ho' : value n' % 2 = 1) (h1 : 1 < value n) (h1' : 1 < value n') (hs : SameBytes (value n) (value n')) (J J' : Junk) (h32 : J.w32.length = 80) (h64 : J.w64.length = 80)
    (h5 : J.w5.length = 5) (h32' : J'.w32.length = 80) (h64' : J'.w64.length = 80) (h5' : J'.w5.length = 5) (scheme : Nat)
    (data data' : List Byte) (hm : data.length = data'.length) (rs rs' : RandState) :
    ∃ k k', rsaPrivNew 4096 n d = .ok k ∧ rsaPrivNew 4096 n' d' = .ok k' ∧
      (rsaSignL J k scheme data (saltFor scheme rs).1).res.map (·, (saltFor scheme rs).2) = rsaSign k scheme data rs ∧
      ((isPkcs1 scheme → ∃ sig sig', (rsaSign k scheme data rs).map Prod.fst = .ok sig ∧ (rsaSign k' scheme data' rs').map Prod.fst = .ok sig' ∧
          sig.length = sig'.length ∧ (sig.head? = some 0#8 ↔ sig'.head? = some 0#8)) →
        (rsaSignL J k scheme data (saltFor scheme rs).1).trace.map blank = (rsaSignL J' k' scheme data' (saltFor scheme rs').1).trace.map blank) := by
  obtain ⟨k, e, _, kd, ok⟩ := rsaPrivNew_spec 128 (by decide) n d hn hd ho h1
  obtain ⟨k', e', _, kd', ok'⟩ := rsaPrivNew_spec 128 (by decide) n' d' hn' hd' ho' h1'
  have hO : JunkOk J := ⟨h32, h64, h5⟩
  have hO' : JunkOk J' := ⟨h32', h64', h5'⟩
  have hJ : SameJunk J J' := ⟨h32.trans h32'.symm, h64.trans h64'.symm, h5.trans h5'.symm⟩
  have hM : SameMont 4096 k.s k'.s := sameMont ok.st ok'.st
  have hD : SL k.d k'.d := by rw [SL, kd, kd', hd, hd']
  have hA := actualN_same ok ok' hs
  refine ⟨k, k', e, e', res_rsaSign hO k scheme data rs, fun hp => ?_⟩
  have fstMap (x : Out (List Byte)) (r : RandState) : (x.map (·, r)).map Prod.fst = x := by cases x <;> rfl
  rw [← res_rsaSign hO, ← res_rsaSign hO', fstMap, fstMap] at hp
  have saltLen : SL (saltFor scheme rs).1 (saltFor scheme rs').1 := by
    have g (m : Nat) (r : RandState) : (genRandom8 m r).1.length = m := genRandom8_length m r
    rw [SL, saltFor, saltFor]
    split
    · rw [g, g]
    split
    · rw [g, g]
    split
    · rw [g, g]
    · rfl
  generalize (saltFor scheme rs).1 = salt at hp saltLen
  generalize (saltFor scheme rs').1 = salt' at hp saltLen
  have z (c : HashClass) : List.replicate (bufSize c) 0#8 = zeroBuf c := rfl
  rw [rsaSignL, rsaSignL] at hp ⊢
  simp only [z] at hp ⊢
  refine (Same.bind (S := SL) (Same.emit rfl) fun _ _ _ => ?_).trace
  simp only [emit_bind] at hp
  have pk (c : HashClass) (hc : c ≠ .crc32) (h : ∃ sig sig', (signPkcs1L J (zeroBuf c) 4096 k c data).res = .ok sig ∧ (signPkcs1L J' (zeroBuf c) 4096 k' c data').res = .ok sig' ∧
      sig.length = sig'.length ∧ (sig.head? = some 0#8 ↔ sig'.head? = some 0#8)) :
      Same blank SL (signPkcs1L J (zeroBuf c) 4096 k c data) (signPkcs1L J' (zeroBuf c) 4096 k' c data') := by
    obtain ⟨sig, sig', s, s', hl, hz⟩ := h
    exact same_signPkcs1 hJ rfl hc hM hD hA hm s s' hl hz
  have ps (c : HashClass) (hc : c ≠ .crc32) : Same blank SL
      (hashOfL J (zeroBuf .sha2_256) .sha2_256 data >>= fun h => signPssL J (zeroBuf c) 4096 k c h salt)
      (hashOfL J' (zeroBuf .sha2_256) .sha2_256 data' >>= fun h => signPssL J' (zeroBuf c) 4096 k' c h salt') :=
    Same.bind (Same.ofId (same_hashOf hJ rfl (by decide) hm)) fun _ _ h => same_signPss hJ rfl hc hM hD hA h saltLen
  by_cases a1 : scheme = 0x0401
  · have hp := hp (.inl a1)
    simp only [if_pos a1] at hp ⊢
    exact pk .sha2_256 (by decide) hp
  by_cases a2 : scheme = 0x0501
  · have hp := hp (.inr (.inl a2))
    simp only [if_neg a1, if_pos a2] at hp ⊢
    exact pk .sha2_384 (by decide) hp
  by_cases a3 : scheme = 0x0601
  · have hp := hp (.inr (.inr a3))
    simp only [if_neg a1, if_neg a2, if_pos a3] at hp ⊢
    exact pk .sha2_512 (by decide) hp
  clear hp
  simp only [if_neg a1, if_neg a2, if_neg a3]
  by_cases b1 : scheme = 0x0804 ∨ scheme = 0x0809
  · simp only [if_pos b1]
    exact ps .sha2_256 (by decide)
  by_cases b2 : scheme = 0x0805 ∨ scheme = 0x080a
  · simp only [if_neg b1, if_pos b2]
    exact ps .sha2_384 (by decide)
  by_cases b3 : scheme = 0x0806 ∨ scheme = 0x080b
  · simp only [if_neg b1, if_neg b2, if_pos b3]
    exact ps .sha2_512 (by decide)
  simp only [if_neg b1, if_neg b2, if_neg b3]
  exact Same.pure rfl

/-- Two moduli of 4096 bits that meet the hypotheses. -/
example : SameBytes (2 ^ 4095 + 1) (2 ^ 4095 + 3) ∧ (2 ^ 4095 + 1) % 2 = 1 ∧ (2 ^ 4095 + 3) % 2 = 1 ∧ someJunk.w32.length = 80 ∧ isPkcs1 0x0401 ∧ ¬ isPkcs1 0x0804 :=
  ⟨⟨4095, 4095, by omega, by omega, by omega, by omega, rfl⟩, by omega, by omega, rfl, .inl rfl, by unfold isPkcs1; decide⟩

end Verif.Props
