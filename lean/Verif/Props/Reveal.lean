import Verif.Props.ChaCha20
import Verif.Props.Modes

/-! C140: what ciphertexts under one key show about the plaintexts. -/

namespace Verif.Props
open Verif.Model Verif.Spec Verif.Spec.Gcm Verif.Proof

/-- C140 for ChaCha20: two sessions with the same key and nonce, in pieces of any length and in any direction: the exclusive or of the outputs is that of the inputs at
every position that both reach. So a second message under one nonce shows the difference of the messages, and a change of ciphertext bits is a change of the same
plaintext bits. -/
theorem C140_chacha (junk junk' key nonce : List Byte) (hj : junk.length = 64) (hj' : junk'.length = 64) (hk : key.length = 32) (hn : nonce.length = 12)
    (calls calls' : List (Bool × List Byte)) : ∃ g h outs outs' g' h', ccNew junk key nonce = .ok g ∧ ccNew junk' key nonce = .ok h ∧
      ccCalls g calls = .ok (outs, g') ∧ ccCalls h calls' = .ok (outs', h') ∧
      ∀ i, i < (calls.map (·.2)).flatten.length → i < (calls'.map (·.2)).flatten.length →
        outs.flatten.getD i 0#8 ^^^ outs'.flatten.getD i 0#8 = (calls.map (·.2)).flatten.getD i 0#8 ^^^ (calls'.map (·.2)).flatten.getD i 0#8 := by
  obtain ⟨g, outs, g', e1, e2, f, _⟩ := C62_conforms junk key nonce hj hk hn calls
  obtain ⟨h, outs', h', e1', e2', f', _⟩ := C62_conforms junk' key nonce hj' hk hn calls'
  refine ⟨g, h, outs, outs', g', h', e1, e1', e2, e2', fun i hi hi' => ?_⟩
  have key : ∀ (d : List Byte), i < d.length → (ChaCha.crypt key 1 nonce 0 d).getD i 0#8 = d.getD i 0#8 ^^^ ChaCha.keystream key 1 nonce (0 + i) := by
    intro d hd
    rw [ChaCha.crypt, List.getD_eq_getElem?_getD, List.getElem?_map, List.getElem?_range hd]
    rfl
  rw [f, f', key _ hi, key _ hi']
  generalize ChaCha.keystream _ _ _ _ = s
  generalize List.getD _ i _ = a
  generalize List.getD _ i _ = b
  rw [BitVec.xor_assoc, BitVec.xor_comm b s, ← BitVec.xor_assoc s s b, BitVec.xor_self, BitVec.zero_xor]

/-- A case that meets the hypotheses of `C140_chacha`. -/
example := C140_chacha (List.replicate 64 1#8) (List.replicate 64 2#8) (List.replicate 32 3#8) (List.replicate 12 4#8) rfl rfl rfl rfl [(true, [1#8])] [(false, [2#8, 3#8])]

theorem good_injective {C : BlockCipher} (hC : GoodCipher C) {a b : List Byte} (ha : a.length = C.size) (hb : b.length = C.size) :
    C.encrypt a = C.encrypt b ↔ a = b :=
  ⟨fun h => by rw [← hC.inverse a ha, ← hC.inverse b hb, h], fun h => by rw [h]⟩

/-- C140 for ECB: two blocks of ciphertext are equal exactly if the blocks of plaintext are, within one message and between messages. -/
theorem C140_ecb (C : BlockCipher) (hC : GoodCipher C) (buf buf' : List Byte) (h : buf.length % C.size = 0) (h' : buf'.length % C.size = 0) :
    ∃ c c', ecbEncrypt C buf = .ok c ∧ ecbEncrypt C buf' = .ok c' ∧
      ∀ k j, k < buf.length / C.size → j < buf'.length / C.size → (blk C.size c k = blk C.size c' j ↔ blk C.size buf k = blk C.size buf' j) := by
  have len : ∀ b : List Byte, b.length % C.size = 0 → b.length = b.length / C.size * C.size := fun b hb => (Nat.div_mul_cancel (Nat.dvd_of_mod_eq_zero hb)).symm
  obtain ⟨c, e1, _, b1⟩ := inPlace_loop C.size C.encrypt hC.pos hC.enc_length _ buf (len buf h)
  obtain ⟨c', e2, _, b2⟩ := inPlace_loop C.size C.encrypt hC.pos hC.enc_length _ buf' (len buf' h')
  refine ⟨c, c', by rw [ecbEncrypt, if_pos h, e1], by rw [ecbEncrypt, if_pos h', e2], fun k j hk hj => ?_⟩
  rw [b1 k hk, b2 j hj]
  exact good_injective hC (blk_length (by rw [len buf h]; exact Nat.mul_le_mul_right _ hk)) (blk_length (by rw [len buf' h']; exact Nat.mul_le_mul_right _ hj))

/-- A case that meets the hypotheses of `C140_ecb`. -/
example := C140_ecb addCipher addCipher_good [1#8, 2#8, 3#8] [2#8, 3#8] rfl rfl

theorem xorBytes_cancel : ∀ {a b p : List Byte}, a.length = p.length → b.length = p.length → xorBytes a p = xorBytes b p → a = b
  | [], [], _, _, _, _ => rfl
  | x :: a, y :: b, z :: p, ha, hb, h => by
    have h' : x ^^^ z = y ^^^ z ∧ xorBytes a p = xorBytes b p := List.cons.inj h
    have hx : x = y := by
      have := congrArg (· ^^^ z) h'.1
      simpa [BitVec.xor_assoc] using this
    rw [hx, xorBytes_cancel (by simpa using ha) (by simpa using hb) h'.2]
  | [], _ :: _, [], _, hb, _ => nomatch hb
  | [], _ :: _, _ :: _, ha, _, _ => nomatch ha
  | _ :: _, [], [], ha, _, _ => nomatch ha
  | _ :: _, [], _ :: _, _, hb, _ => nomatch hb
  | _ :: _, _ :: _, [], ha, _, _ => nomatch ha

/-- C140 for CBC: two messages under one key and IV. The ciphertexts agree in the first `k` blocks exactly if the plaintexts do; and any two equal blocks of ciphertext
show that the plaintext blocks differ by the exclusive or of the ciphertext blocks in front of them. -/
theorem C140_cbc (C : BlockCipher) (hC : GoodCipher C) (iv buf buf' : List Byte) (hiv : iv.length = C.size) (h : buf.length % C.size = 0) (h' : buf'.length % C.size = 0) :
    ∃ c c', cbcEncrypt C iv buf = .ok c ∧ cbcEncrypt C iv buf' = .ok c' ∧
      (∀ k, k ≤ buf.length / C.size → k ≤ buf'.length / C.size →
        ((∀ j, j < k → blk C.size c j = blk C.size c' j) ↔ ∀ j, j < k → blk C.size buf j = blk C.size buf' j)) ∧
      ∀ k j, k < buf.length / C.size → j < buf'.length / C.size → (blk C.size c k = blk C.size c' j ↔
        xorBytes (blk C.size buf k) (if k = 0 then iv else blk C.size c (k - 1)) = xorBytes (blk C.size buf' j) (if j = 0 then iv else blk C.size c' (j - 1))) := by
  obtain ⟨c, e1, l1, b1⟩ := cbcEncrypt_spec C hC iv buf hiv h
  obtain ⟨c', e2, l2, b2⟩ := cbcEncrypt_spec C hC iv buf' hiv h'
  have len : ∀ b : List Byte, b.length % C.size = 0 → b.length = b.length / C.size * C.size := fun b hb => (Nat.div_mul_cancel (Nat.dvd_of_mod_eq_zero hb)).symm
  have bl : ∀ (d b : List Byte), b.length % C.size = 0 → d.length = b.length → ∀ k, k < b.length / C.size → (blk C.size d k).length = C.size := by
    intro d b hb hd k hk
    exact blk_length (by rw [hd, len b hb]; exact Nat.mul_le_mul_right _ hk)
  have pl : ∀ (d b : List Byte), b.length % C.size = 0 → d.length = b.length → ∀ k, k < b.length / C.size → (if k = 0 then iv else blk C.size d (k - 1)).length = C.size := by
    intro d b hb hd k hk
    split
    · exact hiv
    · exact bl d b hb hd _ (by omega)
  have xl : ∀ a b : List Byte, a.length = C.size → b.length = C.size → (xorBytes a b).length = C.size := by
    intro a b ha hb
    rw [xorBytes_length, ha, hb, Nat.min_self]
  have pair : ∀ k j, k < buf.length / C.size → j < buf'.length / C.size → (blk C.size c k = blk C.size c' j ↔
      xorBytes (blk C.size buf k) (if k = 0 then iv else blk C.size c (k - 1)) = xorBytes (blk C.size buf' j) (if j = 0 then iv else blk C.size c' (j - 1))) := by
    intro k j hk hj
    rw [b1 k hk, b2 j hj]
    exact good_injective hC (xl _ _ (bl buf buf h rfl k hk) (pl c buf h l1 k hk)) (xl _ _ (bl buf' buf' h' rfl j hj) (pl c' buf' h' l2 j hj))
  refine ⟨c, c', e1, e2, fun k hk hk' => ?_, pair⟩
  have step : ∀ j, j < k → (∀ i, i < j → blk C.size c i = blk C.size c' i) → (blk C.size c j = blk C.size c' j ↔ blk C.size buf j = blk C.size buf' j) := by
    intro j hj hp
    have hprev : (if j = 0 then iv else blk C.size c (j - 1)) = if j = 0 then iv else blk C.size c' (j - 1) := by
      split
      · rfl
      · exact hp _ (by omega)
    rw [pair j j (by omega) (by omega), hprev]
    constructor
    · exact xorBytes_cancel ((bl buf buf h rfl j (by omega)).trans (pl c' buf' h' l2 j (by omega)).symm)
        ((bl buf' buf' h' rfl j (by omega)).trans (pl c' buf' h' l2 j (by omega)).symm)
    · intro hh; rw [hh]
  constructor
  · intro hc j hj
    exact (step j hj (fun i hi => hc i (by omega))).mp (hc j hj)
  · intro hb j hj
    induction j using Nat.strong_induction_on with
    | _ j ih => exact (step j hj (fun i hi => ih i hi (by omega))).mpr (hb j hj)

/-- The hypotheses hold for a cipher on blocks of one byte and buffers of different lengths. -/
example : GoodCipher addCipher ∧ ([1#8, 2#8] : List Byte).length % addCipher.size = 0 ∧ ([1#8, 2#8, 1#8] : List Byte).length % addCipher.size = 0 ∧
    ([7#8] : List Byte).length = addCipher.size := ⟨addCipher_good, rfl, rfl, rfl⟩

end Verif.Props
