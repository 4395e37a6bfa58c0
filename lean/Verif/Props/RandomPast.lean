import Verif.Props.SaltLeak
import Verif.Props.Threads

/-! C146 and C147: random bytes, and the keys that were drawn before them. -/

namespace Verif.Props
open Verif.Model Verif.Spec Verif.Proof

/-! ### C146 -/

/-- C146 in full, in the weakest form: some byte drawn earlier is not determined by sixteen observed consecutive bytes. -/
def C146_claim : Prop := ∃ (c c' : U64) (n : Nat), (genRandom8 16 (genRandom8 n ⟨[], c⟩).2).1 = (genRandom8 16 (genRandom8 n ⟨[], c'⟩).2).1 ∧
  (genRandom8 n ⟨[], c⟩).1 ≠ (genRandom8 n ⟨[], c'⟩).1

/-- The state before a state of the linear congruential generator. The factor is the inverse of the multiplier. -/
def unstep (c : U64) : U64 := (c - 1442695040888963407#64) * 13877824140714322085#64

/-- `k` steps back -/
def rewindBy (k : Nat) (c : U64) : U64 := unstep^[k] c

theorem rewind_step (c : U64) : unstep (lcgStep c) = c := by
  rw [unstep, lcgStep, BitVec.add_sub_cancel, BitVec.mul_assoc, show 6364136223846793005#64 * 13877824140714322085#64 = 1#64 by decide, BitVec.mul_one]

theorem rewind_iter : ∀ (k : Nat) (c : U64), rewindBy k (lcgIter k c) = c
  | 0, _ => rfl
  | k + 1, c => by rw [rewindBy, lcgIter, Function.iterate_succ_apply, rewind_step]; exact rewind_iter k c

/-- The state after bytes were drawn: two steps for every value that was begun. -/
theorem gen8_state : ∀ (n : Nat) (c : U64), (genRandom8 n ⟨[], c⟩).2 = ⟨[], lcgIter (2 * ((n + 7) / 8)) c⟩ := by
  intro n
  induction n using Nat.strong_induction_on with
  | _ n ih =>
    intro c
    unfold genRandom8
    rw [genRandomB]
    by_cases h : n = 0 ∨ (8 : Nat) = 0
    · rw [dif_pos h]
      obtain rfl : n = 0 := by omega
      rfl
    · rw [dif_neg h]
      dsimp only
      rw [after_value]
      refine (ih (n - 8) (by omega) (lcgIter 2 c)).trans ?_
      rw [← lcgIter_add, show 2 * ((n - 8 + 7) / 8) + 2 = 2 * ((n + 7) / 8) by omega]

/-- What an observer does with sixteen bytes, before which `n` bytes were drawn: compute the state after them and go back. -/
def stateBefore (n : Nat) (observed : List Byte) : RandState :=
  ⟨[], rewindBy (2 * ((n + 7) / 8) + 4) (observe (le8 observed) (le8 (observed.drop 8)))⟩

/-- C146, what the code does for every state: sixteen bytes determine the state before the `n` bytes that were drawn earlier. Missing: everything, the claim is
false. -/
theorem C146_partial (n : Nat) (c : U64) : stateBefore n (genRandom8 16 (genRandom8 n ⟨[], c⟩).2).1 = ⟨[], c⟩ := by
  rw [stateBefore, gen8_state n c]
  have h := C93_partial (lcgIter (2 * ((n + 7) / 8)) c)
  rw [gen8_state 16] at h
  rw [← (RandState.mk.inj h).2, ← lcgIter_add, Nat.add_comm (2 * ((16 + 7) / 8))]
  exact congrArg (RandState.mk []) (rewind_iter _ _)

/-- Hence they determine the bytes drawn earlier. -/
theorem C146_bytes_partial (n : Nat) (c : U64) :
    (genRandom8 n (stateBefore n (genRandom8 16 (genRandom8 n ⟨[], c⟩).2).1)).1 = (genRandom8 n ⟨[], c⟩).1 := by rw [C146_partial]

/-- C146 fails. -/
theorem C146_false : ¬ C146_claim := by
  rintro ⟨c, c', n, h, hn⟩
  apply hn
  rw [← C146_bytes_partial n c, ← C146_bytes_partial n c', h]

/-- in a fresh process, ten bytes and then sixteen bytes are drawn -/
example : (genRandom8 16 (genRandom8 10 randInit).2).1.length = 16 ∧ stateBefore 10 (genRandom8 16 (genRandom8 10 randInit).2).1 = randInit :=
  ⟨genRandom8_length _ _, C146_partial 10 _⟩

/-! ### C147 -/

/-- C147, full statement: an X25519 key pair is made, `m` more bytes are drawn, then a message is signed; whoever sees the signature cannot compute the private key,
whatever function `guess` of the signature they use. -/
def C147_claim : Prop := ∀ (n e d : List U32) (k scheme m : Nat) (message : List Byte), n.length = 128 → e.length = 128 → d.length = 128 →
  ValidPair (value n) (value e) (value d) → 2 ^ (8 * k - 1) ≤ value n → value n < 2 ^ (8 * k) → 130 ≤ k → message.length < 2 ^ 61 →
  (∃ c, (scheme, c) ∈ pssSchemes) → ∀ guess : List Byte → Out (List U32), ∃ cval key rs sig rs',
    ecRandomKey ⟨[], cval⟩ = .ok (key, rs) ∧
    (do let ks ← rsaPrivNew 4096 n d; rsaSign ks scheme message (genRandom8 m rs).2) = .ok (sig, rs') ∧ guess sig ≠ .ok key

/-- What an observer does: open the signature with the public key, take the salt out of it as every verifier does, compute the state of the generator from its last
sixteen bytes, go back to the state before the key was drawn, and draw it. -/
def stealEarlierKey (c : HashClass) (m n e : Nat) (sig : List Byte) : Out (List U32) := do
  let salt ← getSalt c (hashsize c) (i2osp (beNat sig ^ e % n) sig.length)
  let key ← ecRandomKey (stateBefore (32 + 8 * ((m + 7) / 8) + (hashsize c - 16)) (salt.drop (hashsize c - 16)))
  return key.1

/-- A PSS signature by `rsaSign` and the salt that can be read from it. -/
theorem sign_salt (n e d : List U32) (k scheme : Nat) (message : List Byte) (rs : RandState) (hn : n.length = 128)
    (hd : d.length = 128) (hv : ValidPair (value n) (value e) (value d)) (hlo : 2 ^ (8 * k - 1) ≤ value n) (hhi : value n < 2 ^ (8 * k))
    (hk : 130 ≤ k) (hm : message.length < 2 ^ 61) (c : HashClass) (hc : (scheme, c) ∈ pssSchemes) :
    ∃ sig, (do let ks ← rsaPrivNew 4096 n d; rsaSign ks scheme message rs) = .ok (sig, (genRandom8 (hashsize c) rs).2) ∧
      getSalt c (hashsize c) (i2osp (beNat sig ^ value e % value n) sig.length) = .ok (genRandom8 (hashsize c) rs).1 := by
  obtain ⟨_, _, h1, hodd⟩ := validPair_pos hv
  obtain ⟨ks, eks, _, _, oks⟩ := rsaPrivNew_spec 128 (by decide) n d hn hd hodd h1
  have hfit : k ≤ 512 := fit_of_bounds (w := 128) (by decide) hn (le_trans (Nat.pow_le_pow_right (by decide) (by omega)) hlo)
  have hsl := genRandom8_length (hashsize c) rs
  have hh := hashOf_length .sha2_256 message
  have hle := hashsize_le c
  have h32 : hashsize .sha2_256 = 32 := rfl
  obtain ⟨sig, es, ls, hsalt⟩ := signPss_salt oks hv k (by omega) hlo hhi c (hashOf .sha2_256 message) (genRandom8 (hashsize c) rs).1
    (by omega) (by omega) (by omega)
  rw [hsl, ← ls] at hsalt
  refine ⟨sig, ?_, hsalt⟩
  have e4 : (4096 : Nat) = 32 * 128 := by decide
  rw [e4, eks, loop_ok_bind]
  simp only [pssSchemes, List.mem_cons, Prod.mk.injEq, List.not_mem_nil, or_false] at hc
  rcases hc with ⟨rfl, rfl⟩ | ⟨rfl, rfl⟩ | ⟨rfl, rfl⟩ | ⟨rfl, rfl⟩ | ⟨rfl, rfl⟩ | ⟨rfl, rfl⟩ <;>
  · rw [rsaSign]
    simp only [Nat.reduceEqDiff, if_false, if_true, or_true, true_or, or_self]
    exact congrArg (Except.map _) es

theorem bnRandom_state (c : U64) : (bnRandom 256 ⟨[], c⟩).2 = ⟨[], lcgIter 8 c⟩ := by
  rw [bnRandom, genRandom32, show bnN 256 = 8 from rfl]
  rw [genRandomB, dif_neg (by decide)]
  dsimp only
  rw [genRandomB, dif_neg (by decide)]
  dsimp only
  rw [genRandomB, dif_neg (by decide)]
  dsimp only
  rw [genRandomB, dif_neg (by decide)]
  dsimp only
  rw [genRandomB, dif_pos (by decide), after_value, after_value, after_value, after_value, ← lcgIter_add, ← lcgIter_add, ← lcgIter_add]

/-- A key is drawn for every state, and 32 bytes are used up. -/
theorem key_drawn (c : U64) : ∃ key, ecRandomKey ⟨[], c⟩ = .ok (key, ⟨[], lcgIter 8 c⟩) := by
  obtain ⟨key, h, _⟩ := C85_random_key ⟨[], c⟩
  exact ⟨key, by rw [h, bnRandom_state]⟩

/-- C147, what the code does: for every key pair of whole bytes, every message, every PSS scheme and every number of bytes drawn in between, the observer's key is the
private key made before. Missing: everything, the claim is false. -/
theorem C147_partial (n e d : List U32) (k scheme m : Nat) (message : List Byte) (cval : U64) (hn : n.length = 128)
    (hd : d.length = 128) (hv : ValidPair (value n) (value e) (value d)) (hlo : 2 ^ (8 * k - 1) ≤ value n) (hhi : value n < 2 ^ (8 * k))
    (hk : 130 ≤ k) (hm : message.length < 2 ^ 61) (c : HashClass) (hc : (scheme, c) ∈ pssSchemes) :
    ∃ key rs sig rs', ecRandomKey ⟨[], cval⟩ = .ok (key, rs) ∧
      (do let ks ← rsaPrivNew 4096 n d; rsaSign ks scheme message (genRandom8 m rs).2) = .ok (sig, rs') ∧
      stealEarlierKey c m (value n) (value e) sig = .ok key := by
  obtain ⟨key, ek⟩ := key_drawn cval
  obtain ⟨sig, es, hsalt⟩ := sign_salt n e d k scheme message (genRandom8 m ⟨[], lcgIter 8 cval⟩).2 hn hd hv hlo hhi hk hm c hc
  refine ⟨key, _, sig, _, ek, es, ?_⟩
  rw [stealEarlierKey, hsalt, ok_bind]
  have h8 : ∃ j, hashsize c = 8 * j + 16 := by
    simp only [pssSchemes, List.mem_cons, Prod.mk.injEq, List.not_mem_nil, or_false] at hc
    rcases hc with ⟨rfl, rfl⟩ | ⟨rfl, rfl⟩ | ⟨rfl, rfl⟩ | ⟨rfl, rfl⟩ | ⟨rfl, rfl⟩ | ⟨rfl, rfl⟩
    exacts [⟨2, rfl⟩, ⟨4, rfl⟩, ⟨6, rfl⟩, ⟨2, rfl⟩, ⟨4, rfl⟩, ⟨6, rfl⟩]
  obtain ⟨j, hj⟩ := h8
  have hd16 : (genRandom8 (hashsize c) (genRandom8 m ⟨[], lcgIter 8 cval⟩).2).1.drop (hashsize c - 16) =
      (genRandom8 16 (genRandom8 (32 + 8 * ((m + 7) / 8) + (hashsize c - 16)) ⟨[], cval⟩).2).1 := by
    rw [hj, show 8 * j + 16 - 16 = 8 * j by omega, gen_append, List.drop_left' (genRandom8_length _ _), gen8_state m, gen8_state (8 * j), gen8_state, ← lcgIter_add,
      ← lcgIter_add]
    rw [show 2 * ((8 * j + 7) / 8) + 2 * ((m + 7) / 8) + 8 = 2 * ((32 + 8 * ((m + 7) / 8) + 8 * j + 7) / 8) by omega]
  rw [hd16, C146_partial, ek]
  rfl

/-- C147 fails, for a key of 1128 bits. -/
theorem C147_false : ¬ C147_claim := by
  intro h
  have hn : value demoN2 = (2 ^ 521 - 1) * (2 ^ 607 - 1) := demoN2_facts.2
  have h1 : value (bnOfU32 4096 1#32) = 1 := by decide +kernel
  have hnl : demoN2.length = 128 := demoN2_facts.1
  have h1l : (bnOfU32 4096 1#32).length = 128 := by decide +kernel
  have hv : ValidPair (value demoN2) (value (bnOfU32 4096 1#32)) (value (bnOfU32 4096 1#32)) := by rw [hn, h1]; exact demo_pair2
  have hlo : 2 ^ (8 * 141 - 1) ≤ value demoN2 := by rw [hn]; decide +kernel
  have hhi : value demoN2 < 2 ^ (8 * 141) := by rw [hn]; decide +kernel
  obtain ⟨cval, key, rs, sig, rs', ek, es, hne⟩ := h demoN2 _ _ 141 0x0804 32 [] hnl h1l h1l hv hlo hhi (by decide) (by decide) ⟨.sha2_256, by decide⟩
    (stealEarlierKey .sha2_256 32 (value demoN2) (value (bnOfU32 4096 1#32)))
  obtain ⟨key', rs2, sig', rs3, ek', es', heq⟩ := C147_partial demoN2 (bnOfU32 4096 1#32) _ 141 0x0804 32 [] cval hnl h1l hv hlo hhi (by decide) (by decide)
    .sha2_256 (by decide)
  obtain ⟨rfl, rfl⟩ := Prod.mk.inj (Except.ok.inj (ek.symm.trans ek'))
  obtain ⟨rfl, rfl⟩ := Prod.mk.inj (Except.ok.inj (es.symm.trans es'))
  exact hne heq

/-- Whoever saw the signature and the two public values of an X25519 exchange in which the signer took part also has the shared secret. -/
theorem C147_secret_partial (n e d : List U32) (k scheme m : Nat) (message : List Byte) (cval : U64) (peer : List U32) (hn : n.length = 128)
    (hd : d.length = 128) (hv : ValidPair (value n) (value e) (value d)) (hlo : 2 ^ (8 * k - 1) ≤ value n) (hhi : value n < 2 ^ (8 * k))
    (hk : 130 ≤ k) (hm : message.length < 2 ^ 61) (c : HashClass) (hc : (scheme, c) ∈ pssSchemes) :
    ∃ key rs sig rs', ecRandomKey ⟨[], cval⟩ = .ok (key, rs) ∧
      (do let ks ← rsaPrivNew 4096 n d; rsaSign ks scheme message (genRandom8 m rs).2) = .ok (sig, rs') ∧
      (do let stolen ← stealEarlierKey c m (value n) (value e) sig; x25519 stolen peer) = x25519 key peer := by
  obtain ⟨key, rs, sig, rs', h1, h2, h3⟩ := C147_partial n e d k scheme m message cval hn hd hv hlo hhi hk hm c hc
  exact ⟨key, rs, sig, rs', h1, h2, by rw [h3, ok_bind]⟩

/-- hypotheses of C147_partial for this key -/
example : ∃ n e d k, n.length = 128 ∧ d.length = 128 ∧ ValidPair (value n) (value e) (value d) ∧ 2 ^ (8 * k - 1) ≤ value n ∧ value n < 2 ^ (8 * k) ∧ 130 ≤ k ∧
    (0x0804, HashClass.sha2_256) ∈ pssSchemes := by
  have hn : value demoN2 = (2 ^ 521 - 1) * (2 ^ 607 - 1) := demoN2_facts.2
  have h1 : value (bnOfU32 4096 1#32) = 1 := by decide +kernel
  exact ⟨demoN2, bnOfU32 4096 1#32, bnOfU32 4096 1#32, 141, demoN2_facts.1, by decide +kernel, by rw [hn, h1]; exact demo_pair2, by rw [hn]; decide +kernel,
    by rw [hn]; decide +kernel, by decide, by decide⟩

end Verif.Props
