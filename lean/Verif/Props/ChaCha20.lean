import Verif.Proof.ChaCha20

/-! C62, C63, C64: the ChaCha20 stream cipher. -/

namespace Verif.Props

open Verif.Model Verif.Spec.ChaCha Verif.Proof

/-- A sequence of calls on one object: `Encrypt` (`true`) or `Decrypt` (`false`) on consecutive pieces of data; the results in order. -/
def ccCalls (g : ChaCha20) : List (Bool × List Byte) → Out (List (List Byte) × ChaCha20)
  | [] => .ok ([], g)
  | (enc, data) :: rest => do
    let r ← (bif enc then ccEncrypt else ccDecrypt) g data
    let rs ← ccCalls r.2 rest
    return (r.1 :: rs.1, rs.2)

theorem crypt_append (key nonce : List Byte) (c p : Nat) (a b : List Byte) :
    crypt key c nonce p (a ++ b) = crypt key c nonce p a ++ crypt key c nonce (p + a.length) b := by
  induction a generalizing p with
  | nil => rfl
  | cons x a ih =>
    rw [List.cons_append, Cc.crypt_cons, Cc.crypt_cons, ih, List.length_cons, List.cons_append, show p + 1 + a.length = p + (a.length + 1) by omega]

theorem crypt_length (key nonce : List Byte) (c p : Nat) (a : List Byte) : (crypt key c nonce p a).length = a.length := by simp [crypt]

theorem ccCalls_at {key nonce : List Byte} (calls : List (Bool × List Byte)) : ∀ {g : ChaCha20} {pos : Nat}, Cc.At key nonce g pos →
    ∃ outs g', ccCalls g calls = .ok (outs, g') ∧ outs.flatten = crypt key 1 nonce pos (calls.map (·.2)).flatten ∧
      outs.map List.length = calls.map (·.2.length) ∧ Cc.At key nonce g' (pos + (calls.map (·.2)).flatten.length) := by
  induction calls with
  | nil => intro g pos h; exact ⟨[], g, rfl, rfl, rfl, h⟩
  | cons call calls ih =>
    obtain ⟨enc, data⟩ := call
    intro g pos h
    obtain ⟨g1, e1, h1⟩ := Cc.encrypt_at data h
    obtain ⟨outs, g2, e2, f2, l2, h2⟩ := ih h1
    have e1' : (bif enc then ccEncrypt else ccDecrypt) g data = .ok (crypt key 1 nonce pos data, g1) := by
      cases enc
      · rw [cond_false, Cc.decrypt_eq, e1]
      · rw [cond_true, e1]
    refine ⟨crypt key 1 nonce pos data :: outs, g2, ?_, ?_, ?_, ?_⟩
    · rw [ccCalls, e1', ok_bind, e2, ok_bind]; rfl
    · rw [List.flatten_cons, f2, List.map_cons, List.flatten_cons, crypt_append]
    · rw [List.map_cons, List.map_cons, l2, crypt_length]
    · rw [List.map_cons, List.flatten_cons, List.length_append, ← Nat.add_assoc]; exact h2

/-- C62: over any sequence of calls with pieces of any length the outputs, put together, are the inputs, put together, xored with the
RFC 8439 key stream from block counter 1 on; every piece keeps its length. -/
theorem C62_conforms (junk key nonce : List Byte) (hj : junk.length = 64) (hk : key.length = 32) (hn : nonce.length = 12)
    (calls : List (Bool × List Byte)) :
    ∃ g outs g', ccNew junk key nonce = .ok g ∧ ccCalls g calls = .ok (outs, g') ∧
      outs.flatten = crypt key 1 nonce 0 (calls.map (·.2)).flatten ∧ outs.map List.length = calls.map (·.2.length) := by
  obtain ⟨g, e, h⟩ := Cc.new_at hj hk hn
  obtain ⟨outs, g', e', f, l, _⟩ := ccCalls_at calls h
  exact ⟨g, outs, g', e, e', f, l⟩

/-- The key block function of the specification gives the keystream block of RFC 8439 section 2.3.2. -/
example : block ((List.range 32).map (BitVec.ofNat 8)) 1#32 (unhex "000000090000004a00000000") =
    unhex "10f1e7e4d13b5915500fdd1fa32071c4c7d1f4c733c068030422aa9ac3d46c4ed2826446079faa0914c2d705d98b02a2b5129cd1de164eb9cbd083e8a2503c4e" := by
  decide +kernel

/-- The hypotheses of C62 are met by the example of RFC 8439 section 2.4.2, cut in pieces of 5, 0 and 9 bytes. -/
example : ∃ (junk key nonce : List Byte) (calls : List (Bool × List Byte)), junk.length = 64 ∧ key.length = 32 ∧ nonce.length = 12 ∧
    (calls.map (·.2)).flatten = ascii "Ladies and Gen" ∧
    (do let g ← ccNew junk key nonce; let r ← ccCalls g calls; return r.1) =
      .ok [unhex "6e2e359a25", [], unhex "68f98041ba0728dd0d"] :=
  ⟨List.replicate 64 7#8, (List.range 32).map (BitVec.ofNat 8), unhex "000000000000004a00000000",
    [(true, ascii "Ladie"), (false, []), (true, ascii "s and Gen")], by decide +kernel, by decide +kernel, by decide +kernel, by decide +kernel, by decide +kernel⟩

/-- Applying the key stream twice restores the data. -/
theorem crypt_crypt (key nonce : List Byte) (c p : Nat) (a : List Byte) : crypt key c nonce p (crypt key c nonce p a) = a := by
  induction a generalizing p with
  | nil => rfl
  | cons x a ih => rw [Cc.crypt_cons, Cc.crypt_cons, ih, BitVec.xor_assoc, BitVec.xor_self, BitVec.xor_zero]

/-- C63, round trip: what one object encrypts in any pieces, another object with equal key and nonce decrypts in any other pieces. The
uninitialised buffers of the two objects do not matter. -/
theorem C63_roundtrip (junk junk' key nonce : List Byte) (hj : junk.length = 64) (hj' : junk'.length = 64) (hk : key.length = 32)
    (hn : nonce.length = 12) (pieces pieces' : List (List Byte)) :
    ∃ g h, ccNew junk key nonce = .ok g ∧ ccNew junk' key nonce = .ok h ∧
    ∃ outs g', ccCalls g (pieces.map (fun d => (true, d))) = .ok (outs, g') ∧
      (outs.flatten = pieces'.flatten →
        ∃ outs' h', ccCalls h (pieces'.map (fun d => (false, d))) = .ok (outs', h') ∧ outs'.flatten = pieces.flatten) := by
  obtain ⟨g, eg, hg⟩ := Cc.new_at (key := key) (nonce := nonce) hj hk hn
  obtain ⟨h, eh, hh⟩ := Cc.new_at (key := key) (nonce := nonce) hj' hk hn
  obtain ⟨outs, g', e, f, _⟩ := ccCalls_at (pieces.map (fun d => (true, d))) hg
  obtain ⟨outs', h', e', f', _⟩ := ccCalls_at (pieces'.map (fun d => (false, d))) hh
  refine ⟨g, h, eg, eh, outs, g', e, fun hp => ⟨outs', h', e', ?_⟩⟩
  rw [f']
  have m1 : (pieces'.map (fun d => (false, d))).map (fun x : Bool × List Byte => x.2) = pieces' := by simp [List.map_map, Function.comp_def]
  have m2 : (pieces.map (fun d => (true, d))).map (fun x : Bool × List Byte => x.2) = pieces := by simp [List.map_map, Function.comp_def]
  rw [m1, ← hp, f, m2, crypt_crypt]

/-- A case that meets the hypotheses of `C63_roundtrip`. -/
example := C63_roundtrip (List.replicate 64 1#8) (List.replicate 64 2#8) (List.replicate 32 3#8) (List.replicate 12 4#8) rfl rfl rfl rfl [[1#8], [2#8, 3#8]] [[9#8, 8#8, 7#8]]

/-- C63, constructor. -/
theorem C63_constructor (junk key nonce : List Byte) :
    (ccNew junk key nonce = .error .thrown ↔ key.length ≠ 32 ∨ nonce.length ≠ 12) ∧
    (key.length = 32 → nonce.length = 12 → ∃ g, ccNew junk key nonce = .ok g) := by
  unfold ccNew
  by_cases h1 : key.length = 32
  · by_cases h2 : nonce.length = 12
    · rw [if_neg (by simp [h1]), if_neg (by simp [h2])]
      exact ⟨⟨fun h => (nomatch h), fun h => h.elim (absurd h1) (absurd h2)⟩, fun _ _ => ⟨_, rfl⟩⟩
    · rw [if_neg (by simp [h1]), if_pos h2]
      exact ⟨⟨fun _ => Or.inr h2, fun _ => rfl⟩, fun _ h => absurd h h2⟩
  · rw [if_pos h1]
    exact ⟨⟨fun _ => Or.inl h1, fun _ => rfl⟩, fun h => absurd h h1⟩

/-- Concrete case for C63: an encryption in two pieces and a decryption in three. -/
example : ∃ (pieces pieces' : List (List Byte)), pieces.length = 2 ∧ pieces'.length = 3 ∧
    (do let g ← ccNew (List.replicate 64 0#8) (List.replicate 32 1#8) (List.replicate 12 2#8)
        let r ← ccCalls g (pieces.map (fun d => (true, d)))
        return r.1.flatten) = .ok pieces'.flatten ∧
    (do let h ← ccNew (List.replicate 64 9#8) (List.replicate 32 1#8) (List.replicate 12 2#8)
        let r ← ccCalls h (pieces'.map (fun d => (false, d)))
        return r.1) = .ok [[1#8], [2#8, 3#8], []] :=
  let o := crypt (List.replicate 32 1#8) 1 (List.replicate 12 2#8) 0 [1#8, 2#8, 3#8]
  ⟨[[1#8, 2#8], [3#8]], [[o.getD 0 0#8], [o.getD 1 0#8, o.getD 2 0#8], []], rfl, rfl, by decide +kernel, by decide +kernel⟩

/-! ### C64 -/

/-- C64 in full: the block counters (`state[12]` is the one of the next block) of two different blocks of one object differ. -/
def C64_claim : Prop := ∀ (junk key nonce : List Byte) (calls more : List (Bool × List Byte)) (g g1 g2 : ChaCha20) (o1 o2 : List (List Byte)),
  junk.length = 64 → ccNew junk key nonce = .ok g → ccCalls g calls = .ok (o1, g1) → ccCalls g (calls ++ more) = .ok (o2, g2) →
  (calls.map (·.2)).flatten.length / 64 ≠ ((calls ++ more).map (·.2)).flatten.length / 64 → g1.state.getD 12 0#32 ≠ g2.state.getD 12 0#32

theorem ccNew_sizes {junk key nonce : List Byte} {g : ChaCha20} (h : ccNew junk key nonce = .ok g) : key.length = 32 ∧ nonce.length = 12 := by
  by_contra hc
  rw [(C63_constructor junk key nonce).1.2 (by tauto)] at h
  exact nomatch h

/-- The exact truth about block counters: after any calls with `n` bytes in total, the counter of the next block is `n / 64 + 2` modulo `2^32`. -/
theorem C64_counter (junk key nonce : List Byte) (hj : junk.length = 64) (calls : List (Bool × List Byte)) (g g' : ChaCha20) (outs : List (List Byte))
    (hg : ccNew junk key nonce = .ok g) (hc : ccCalls g calls = .ok (outs, g')) :
    g'.state.getD 12 0#32 = BitVec.ofNat 32 ((calls.map (·.2)).flatten.length / 64 + 2) := by
  obtain ⟨hk, hn⟩ := ccNew_sizes hg
  obtain ⟨g0, e, h⟩ := Cc.new_at (key := key) (nonce := nonce) hj hk hn
  rw [hg] at e; cases e
  obtain ⟨outs', g1, e', _, _, h'⟩ := ccCalls_at calls h
  rw [hc] at e'; cases e'
  rw [h'.state.2 12 (by omega), Nat.zero_add, show 1 + (calls.map (·.2)).flatten.length / 64 + 1 = (calls.map (·.2)).flatten.length / 64 + 2 by omega]
  rfl

/-- C64 for objects that process less than `2^38` bytes (256 GiB): different blocks have different counters. Missing: larger amounts, for which the claim is false. -/
theorem C64_partial (junk key nonce : List Byte) (hj : junk.length = 64) (calls more : List (Bool × List Byte)) (g g1 g2 : ChaCha20)
    (o1 o2 : List (List Byte)) (hg : ccNew junk key nonce = .ok g) (h1 : ccCalls g calls = .ok (o1, g1))
    (h2 : ccCalls g (calls ++ more) = .ok (o2, g2)) (hlen : ((calls ++ more).map (·.2)).flatten.length < 2 ^ 38)
    (hne : (calls.map (·.2)).flatten.length / 64 ≠ ((calls ++ more).map (·.2)).flatten.length / 64) :
    g1.state.getD 12 0#32 ≠ g2.state.getD 12 0#32 := by
  rw [C64_counter junk key nonce hj calls g g1 o1 hg h1, C64_counter junk key nonce hj _ g g2 o2 hg h2]
  have hle : (calls.map (·.2)).flatten.length ≤ ((calls ++ more).map (·.2)).flatten.length := by
    rw [List.map_append, List.flatten_append, List.length_append]; omega
  intro h
  have := congrArg BitVec.toNat h
  simp only [BitVec.toNat_ofNat] at this
  omega

/-- Concrete case for C64_counter and C64_partial: 100 bytes, then 30 bytes that reach the third block. -/
example : ∃ (calls more : List (Bool × List Byte)) (g g1 g2 : ChaCha20) (o1 o2 : List (List Byte)),
    ccNew (List.replicate 64 0#8) (List.replicate 32 1#8) (List.replicate 12 2#8) = .ok g ∧ ccCalls g calls = .ok (o1, g1) ∧
    ccCalls g (calls ++ more) = .ok (o2, g2) ∧ ((calls ++ more).map (·.2)).flatten.length < 2 ^ 38 ∧
    (calls.map (·.2)).flatten.length / 64 ≠ ((calls ++ more).map (·.2)).flatten.length / 64 := by
  obtain ⟨g, e, h⟩ := Cc.new_at (junk := List.replicate 64 0#8) (key := List.replicate 32 1#8) (nonce := List.replicate 12 2#8) (by simp) (by simp) (by simp)
  obtain ⟨o1, g1, e1, _⟩ := ccCalls_at [(true, List.replicate 100 1#8)] h
  obtain ⟨o2, g2, e2, _⟩ := ccCalls_at ([(true, List.replicate 100 1#8)] ++ [(false, List.replicate 30 0#8)]) h
  exact ⟨_, _, g, g1, g2, o1, o2, e, e1, e2, by simp, by simp⟩

/-- After exactly `2^38` bytes the object is in the state it was constructed in, and the key stream starts over: two messages `2^38` bytes
apart are encrypted with the same key stream, so the xor of the ciphertexts is the xor of the messages. -/
theorem C64_repeats (junk key nonce : List Byte) (hj : junk.length = 64) (g : ChaCha20) (hg : ccNew junk key nonce = .ok g)
    (m fill m' : List Byte) (hm : m.length = m'.length) (hfill : m.length + fill.length = 2 ^ 38) :
    ∃ c x c' g', ccCalls g [(true, m), (true, fill), (true, m')] = .ok ([c, x, c'], g') ∧
      ∀ i < m.length, c.getD i 0#8 ^^^ c'.getD i 0#8 = m.getD i 0#8 ^^^ m'.getD i 0#8 := by
  obtain ⟨hk, hn⟩ := ccNew_sizes hg
  obtain ⟨g0, e, h⟩ := Cc.new_at (key := key) (nonce := nonce) hj hk hn
  rw [hg] at e; cases e
  obtain ⟨g1, e1, h1⟩ := Cc.encrypt_at m h
  obtain ⟨g2, e2, h2⟩ := Cc.encrypt_at fill h1
  obtain ⟨g3, e3, h3⟩ := Cc.encrypt_at m' h2
  refine ⟨crypt key 1 nonce 0 m, crypt key 1 nonce (0 + m.length) fill, crypt key 1 nonce (0 + m.length + fill.length) m', g3, ?_, fun i hi => ?_⟩
  · simp only [ccCalls, cond_true, e1, ok_bind, e2, e3]; rfl
  · have hks : ∀ i, keystream key 1 nonce (0 + m.length + fill.length + i) = keystream key 1 nonce (0 + i) := by
      intro i
      rw [Nat.zero_add, hfill, Nat.zero_add]
      have a1 : (2 ^ 38 + i) / 64 = 2 ^ 32 + i / 64 := by omega
      have a2 : (2 ^ 38 + i) % 64 = i % 64 := by omega
      unfold keystream
      rw [a1, a2]
      have : BitVec.ofNat 32 (1 + (2 ^ 32 + i / 64)) = BitVec.ofNat 32 (1 + i / 64) := by
        apply BitVec.eq_of_toNat_eq
        simp only [BitVec.toNat_ofNat]; omega
      rw [this]
    have gd : ∀ (p : Nat) (a : List Byte), i < a.length → (crypt key 1 nonce p a).getD i 0#8 = a.getD i 0#8 ^^^ keystream key 1 nonce (p + i) := by
      intro p a ha
      rw [List.getD_eq_getElem _ _ (by rw [crypt_length]; exact ha)]
      simp [crypt]
    rw [gd _ _ hi, gd _ _ (by omega), hks]
    generalize keystream key 1 nonce (0 + i) = k
    generalize m.getD i 0#8 = a
    generalize m'.getD i 0#8 = b
    rw [show a ^^^ k ^^^ (b ^^^ k) = a ^^^ b ^^^ (k ^^^ k) by ac_rfl, BitVec.xor_self, BitVec.xor_zero]

/-- Concrete case for C64_repeats. -/
example : ∃ (m fill m' : List Byte) (g : ChaCha20), ccNew (List.replicate 64 0#8) (List.replicate 32 1#8) (List.replicate 12 2#8) = .ok g ∧
    m ≠ m' ∧ m.length = m'.length ∧ m.length + fill.length = 2 ^ 38 := by
  obtain ⟨g, e, _⟩ := Cc.new_at (junk := List.replicate 64 0#8) (key := List.replicate 32 1#8) (nonce := List.replicate 12 2#8) (by simp) (by simp) (by simp)
  exact ⟨ascii "attack", List.replicate (2 ^ 38 - 6) 0#8, ascii "retire", g, e, by decide, by decide, by rw [List.length_replicate]; decide⟩

/-- The claim C64 is false: the 32-bit block counter wraps around without any check. -/
theorem C64_false : ¬ C64_claim := by
  intro h
  obtain ⟨g, hg⟩ := (C63_constructor (List.replicate 64 0#8) (List.replicate 32 0#8) (List.replicate 12 0#8)).2 (by simp) (by simp)
  obtain ⟨g0, e, ha⟩ := Cc.new_at (junk := List.replicate 64 0#8) (key := List.replicate 32 0#8) (nonce := List.replicate 12 0#8) (by simp) (by simp) (by simp)
  rw [hg] at e; cases e
  obtain ⟨o2, g2, e2, _⟩ := ccCalls_at [(true, List.replicate (2 ^ 38) 0#8)] ha
  have hl : (([] ++ [(true, List.replicate (2 ^ 38) (0#8 : Byte))]).map (fun x : Bool × List Byte => x.2)).flatten.length = 2 ^ 38 := by
    simp only [List.nil_append, List.map_cons, List.map_nil, List.flatten_cons, List.flatten_nil, List.append_nil, List.length_replicate]
  refine h (List.replicate 64 0#8) (List.replicate 32 0#8) (List.replicate 12 0#8) [] [(true, List.replicate (2 ^ 38) 0#8)] g g g2 [] o2 (by simp) hg rfl e2 ?_ ?_
  · rw [hl]; simp
  · rw [C64_counter _ _ _ (by simp) [] g g [] hg rfl, C64_counter _ _ _ (by simp) _ g g2 o2 hg e2]
    rw [List.nil_append] at hl
    rw [hl]
    decide +kernel

end Verif.Props
