import Verif.Props.Gcm
import Verif.Model.Modes

/-! C60, C61: counter mode, cipher block chaining and electronic codebook. -/

namespace Verif.Props

open Verif.Model Verif.Spec Verif.Spec.Gcm Verif.Proof

/-! ### C60 -/

/-- C60 in full, for AES-128: the first message is xored with the counter mode keystream that starts at the successor of the IV. -/
def C60_claim : Prop := ∀ (junk key iv data : List Byte), junk.length = 176 → key.length = 16 → iv.length = 16 →
  ∃ g g', ctrNew (aesCipher128 junk) key iv = .ok g ∧ ctrCrypt (aesCipher128 junk) g data = .ok (gctr (Aes.aes128 key) (inc32 iv) data, g')

theorem ctrKeystream_spec {S : Type} (C : Cipher S) (g : Ctr S) (E : M128 → M128) (hE : ∀ b, C.encrypt g.sched b = .ok (E b)) (hiv : g.iv.length = 16)
    (n : Nat) : ∃ log, ctrKeystream C g n = .ok (List.replicate n 0#8, { g with counter := g.counter + 1#64, log := log }) := by
  have hj := ctrStart_16 hiv g.counter
  have hl : (xorBytes g.iv (List.replicate 4 0#8 ++ be64 g.counter.toNat ++ List.replicate 4 0#8)).length = 16 := by
    simp [xorBytes_length, be64_length, hiv]
  generalize xorBytes g.iv (List.replicate 4 0#8 ++ be64 g.counter.toNat ++ List.replicate 4 0#8) = j at hj hl
  obtain ⟨s, e, _⟩ := loop_inv (n := (n + 16 - 1) / 16) (s := (j, List.replicate ((n + 16 - 1) / 16 * 16) 0#8, g.log)) (body := ctrBlock C g.sched)
    (fun _ s => s.1.length = 16 ∧ s.2.1.length = (n + 16 - 1) / 16 * 16) ⟨hl, by simp⟩ (fun k hk ⟨ctr, cap, log⟩ ⟨h1, h2⟩ => by
      simp only at h1 h2
      have h3 : (inc32 ctr).length = 16 := inc32_length h1
      obtain ⟨o, e1, l1, _⟩ := storeAt_spec cap (k * 16) (E (loadBytes (inc32 ctr))) (by omega)
      refine ⟨(inc32 ctr, o, log ++ [loadBytes (inc32 ctr)]), ?_, h3, by show o.length = _; omega⟩
      simp only [ctrBlock, ctrInc_spec h1, loadu16 h3, ok_bind, encLog_ok hE, e1]
      rfl)
  refine ⟨s.2.2, ?_⟩
  have hz : vecResize [] n = List.replicate n 0#8 := by simp [vecResize]
  simp only [ctrKeystream, hj, ok_bind, e, hz]
  rfl

theorem xorInto_zero (data : List Byte) : xorInto data (List.replicate data.length 0#8) 0 data.length = .ok data := by
  obtain ⟨r, e, l, h⟩ := xorInto_spec data (List.replicate data.length 0#8) 0 data.length (by omega) (by simp)
  rw [e]
  congr 1
  refine list_ext_getD 0#8 l (fun i hi => ?_)
  rw [h, if_pos (by omega)]
  have : (List.replicate data.length 0#8).getD i 0#8 = 0#8 := by
    rw [List.getD_eq_getElem _ _ (by simp; omega), List.getElem_replicate]
  rw [this, BitVec.xor_zero]

/-- What happens instead, for any cipher, IV and state of the counter: the data is not changed, by encryption or by decryption.
Missing: the keystream. -/
theorem C60_partial {S : Type} (C : Cipher S) (g : Ctr S) (E : M128 → M128) (hE : ∀ b, C.encrypt g.sched b = .ok (E b)) (hiv : g.iv.length = 16)
    (data : List Byte) : ∃ log, ctrCrypt C g data = .ok (data, { g with counter := g.counter + 1#64, log := log }) := by
  obtain ⟨log, e⟩ := ctrKeystream_spec C g E hE hiv data.length
  refine ⟨log, ?_⟩
  simp only [ctrCrypt, e, ok_bind, xorInto_zero]
  rfl

/-- The constructor: given that the schedule can be made, it throws exactly when key or IV have the wrong size. -/
theorem C60_constructor {S : Type} (C : Cipher S) (key iv : List Byte) (E : M128 → M128) (hC : IsCipher C key E) :
    (ctrNew C key iv = .error .thrown ↔ key.length ≠ C.keysize ∨ iv.length ≠ 16) ∧
    (key.length = C.keysize → iv.length = 16 → ∃ g, ctrNew C key iv = .ok g ∧ g.iv = iv ∧ g.counter = 0#64 ∧ ∀ b, C.encrypt g.sched b = .ok (E b)) := by
  obtain ⟨s, hs, hE⟩ := hC
  rw [ctrNew, hs]
  constructor
  · constructor
    · intro h
      by_contra hn
      rw [ok_bind, if_neg hn] at h
      exact absurd h (by intro h; cases h)
    · intro h
      rw [ok_bind, if_pos h]; rfl
  · intro h1 h2
    rw [ok_bind, if_neg (by omega)]
    exact ⟨_, rfl, rfl, rfl, hE⟩

/-- C60 fails: AES-128 with the zero key does not give a zero block. -/
theorem C60_false : ¬ C60_claim := by
  intro h
  obtain ⟨g, g', e1, e2⟩ := h (List.replicate 176 0#8) (List.replicate 16 0#8) (List.replicate 16 0#8) (List.replicate 16 0#8) rfl rfl rfl
  obtain ⟨E, hC, hE⟩ := aes128_isCipher (List.replicate 176 0#8) (List.replicate 16 0#8) rfl
  obtain ⟨g2, e3, h2, _, h4⟩ := (C60_constructor _ _ (List.replicate 16 0#8) E hC).2 rfl rfl
  rw [e1] at e3
  have := Except.ok.inj e3
  subst this
  obtain ⟨log, e5⟩ := C60_partial _ g E h4 (by rw [h2]; rfl) (List.replicate 16 0#8)
  rw [e5] at e2
  have e6 := (Prod.mk.inj (Except.ok.inj e2)).1
  rw [gctr_block _ _ _ rfl] at e6
  have hA := C52_aes128 (List.replicate 176 0#8) (List.replicate 16 0#8) (inc32 (List.replicate 16 0#8)) rfl
  have hB : aesBlock128 (List.replicate 176 0#8) (List.replicate 16 0#8) (inc32 (List.replicate 16 0#8)) = .ok (unhex "58e2fccefa7e3061367f1d57a4e7455a") := by
    decide +kernel
  rw [hB] at hA
  rw [← Except.ok.inj hA] at e6
  exact absurd e6 (by decide +kernel)

/-- Decryption of the corresponding message restores the data - because neither changes it. -/
theorem C60_restores {S : Type} (C : Cipher S) (key iv : List Byte) (E : M128 → M128) (hC : IsCipher C key E) (hk : key.length = C.keysize)
    (hiv : iv.length = 16) (data : List Byte) : ∃ g g1 c, ctrNew C key iv = .ok g ∧ ctrCrypt C g data = .ok (c, g1) ∧
      ∃ g2, ctrCrypt C g c = .ok (data, g2) := by
  obtain ⟨g, e, h2, _, h4⟩ := (C60_constructor C key iv E hC).2 hk hiv
  obtain ⟨log, e1⟩ := C60_partial C g E h4 (by rw [h2]; exact hiv) data
  exact ⟨g, _, _, e, e1, _, e1⟩

/-! ### C61 -/

/-- `decrypt` inverts `encrypt` on blocks, and both keep the size. -/
structure GoodCipher (C : BlockCipher) : Prop where
  pos : 0 < C.size
  enc_length : ∀ b, b.length = C.size → (C.encrypt b).length = C.size
  dec_length : ∀ b, b.length = C.size → (C.decrypt b).length = C.size
  inverse : ∀ b, b.length = C.size → C.decrypt (C.encrypt b) = b

/-- C61 in full. -/
def C61_claim : Prop := ∀ (C : BlockCipher), GoodCipher C → ∀ buf : List Byte, buf.length % C.size = 0 →
  (∃ c, ecbEncrypt C buf = .ok c ∧ ecbDecrypt C c = .ok buf) ∧
  (∀ iv : List Byte, iv.length = C.size → ∃ c, cbcEncrypt C iv buf = .ok c ∧ cbcDecrypt C c = .ok buf)

/-- Block `k` of a buffer. -/
def blk (size : Nat) (l : List Byte) (k : Nat) : List Byte := (l.drop (k * size)).take size

theorem blk_length {size : Nat} {l : List Byte} {k : Nat} (h : (k + 1) * size ≤ l.length) : (blk size l k).length = size := by
  rw [Nat.add_mul, Nat.one_mul] at h
  simp [blk]; omega

theorem blk_getD {size : Nat} {l : List Byte} {k i : Nat} (hi : i < size) : (blk size l k).getD i 0#8 = l.getD (k * size + i) 0#8 := by
  simp only [blk, List.getD_eq_getElem?_getD, List.getElem?_take_of_lt hi, List.getElem?_drop]

/-- Buffers with equal blocks are equal. -/
theorem blk_ext {size n : Nat} {a b : List Byte} (hp : 0 < size) (ha : a.length = n * size) (hb : b.length = n * size)
    (h : ∀ k, k < n → blk size a k = blk size b k) : a = b := by
  refine list_ext_getD 0#8 (by omega) (fun i hi => ?_)
  have hk : i / size < n := (Nat.div_lt_iff_lt_mul hp).mpr (by omega)
  have := congrArg (fun l => l.getD (i % size) 0#8) (h _ hk)
  simp only [blk_getD (Nat.mod_lt i hp)] at this
  rwa [Nat.mul_comm, Nat.div_add_mod] at this

/-- The blocks after a block was replaced. -/
theorem blk_overwrite {size n : Nat} {l s : List Byte} (hs : s.length = size) (hl : l.length = n * size) {k : Nat} (hk : k < n) (j : Nat) (hj : j < n) :
    blk size (overwrite l (k * size) s) j = if j = k then s else blk size l j := by
  have hle : k * size + s.length ≤ l.length := by
    rw [hl, hs, ← Nat.succ_mul]; exact Nat.mul_le_mul_right _ hk
  have hle2 : ∀ m, m < n → (m + 1) * size ≤ l.length := fun m hm => by rw [hl]; exact Nat.mul_le_mul_right _ hm
  refine list_ext_getD 0#8 ?_ (fun i hi => ?_)
  · rw [blk_length (by rw [overwrite_length hle]; exact hle2 j hj)]
    split
    · exact hs.symm
    · rw [blk_length (hle2 j hj)]
  · rw [blk_length (by rw [overwrite_length hle]; exact hle2 j hj)] at hi
    rw [blk_getD hi, overwrite_getD _ _ _ _ hle]
    by_cases hjk : j = k
    · subst hjk
      rw [if_pos (by omega), if_pos rfl]; congr 1; omega
    · rw [if_neg hjk, blk_getD hi, if_neg]
      intro ⟨h1, h2⟩
      rcases Nat.lt_or_gt_of_ne hjk with h | h
      · have := Nat.mul_le_mul_right size h
        rw [Nat.succ_mul] at this
        omega
      · have := Nat.mul_le_mul_right size h
        rw [Nat.succ_mul] at this
        omega

/-- The loop that replaces every block by its image. -/
theorem inPlace_loop (size : Nat) (f : List Byte → List Byte) (hp : 0 < size) (hf : ∀ b, b.length = size → (f b).length = size) (n : Nat) (buf : List Byte)
    (hl : buf.length = n * size) : ∃ r, loop n buf (fun buf k => inPlace size f buf (k * size)) = .ok r ∧ r.length = n * size ∧
      ∀ k, k < n → blk size r k = f (blk size buf k) := by
  obtain ⟨r, e, h1, h2⟩ := loop_inv (n := n) (s := buf) (body := fun buf k => inPlace size f buf (k * size))
    (fun m r => r.length = n * size ∧ ∀ k, k < n → blk size r k = if k < m then f (blk size buf k) else blk size buf k)
    ⟨hl, fun k _ => by rw [if_neg (by omega)]⟩ (fun m hm r ⟨h1, h2⟩ => by
      have hle : (m + 1) * size ≤ r.length := by rw [h1]; exact Nat.mul_le_mul_right _ hm
      have hle' : m * size + size ≤ r.length := by rwa [Nat.succ_mul] at hle
      have hb : (f (blk size r m)).length = size := hf _ (blk_length hle)
      refine ⟨overwrite r (m * size) (f (blk size r m)), if_pos hle', by rw [overwrite_length (by omega)]; exact h1, fun k hk => ?_⟩
      rw [blk_overwrite hb h1 hm k hk]
      by_cases hkm : k = m
      · subst hkm
        rw [if_pos rfl, if_pos (by omega), h2 k hk, if_neg (by omega)]
      · rw [if_neg hkm, h2 k hk]
        by_cases h : k < m
        · rw [if_pos h, if_pos (by omega)]
        · rw [if_neg h, if_neg (by omega)])
  exact ⟨r, e, h1, fun k hk => by rw [h2 k hk, if_pos hk]⟩

/-- A cipher with one-byte blocks: adding 1. -/
def addCipher : BlockCipher := { size := 1, encrypt := fun l => l.map (· + 1#8), decrypt := fun l => l.map (· - 1#8) }

theorem addCipher_good : GoodCipher addCipher :=
  ⟨by decide, fun b h => by simpa [addCipher] using h, fun b h => by simpa [addCipher] using h, fun b _ => by
    simp [addCipher, Function.comp_def]⟩

/-- C61 for ECB: full inverse. -/
theorem C61_ecb (C : BlockCipher) (hC : GoodCipher C) (buf : List Byte) (h : buf.length % C.size = 0) :
    ∃ c, ecbEncrypt C buf = .ok c ∧ ecbDecrypt C c = .ok buf := by
  have hl : buf.length = buf.length / C.size * C.size := (Nat.div_mul_cancel (Nat.dvd_of_mod_eq_zero h)).symm
  obtain ⟨c, e1, l1, b1⟩ := inPlace_loop C.size C.encrypt hC.pos hC.enc_length _ buf hl
  obtain ⟨d, e2, l2, b2⟩ := inPlace_loop C.size C.decrypt hC.pos hC.dec_length _ c l1
  have hc : c.length = buf.length := by omega
  refine ⟨c, by rw [ecbEncrypt, if_pos h, e1], ?_⟩
  rw [ecbDecrypt, hc, if_pos h, e2]
  congr 1
  refine blk_ext hC.pos l2 hl (fun k hk => ?_)
  rw [b2 k hk, b1 k hk, hC.inverse]
  exact blk_length (by rw [hl]; exact Nat.mul_le_mul_right _ hk)

/-- A case that meets the hypotheses of `C61_ecb`. -/
example := C61_ecb addCipher addCipher_good [1#8, 2#8, 3#8] rfl

/-- What CBC encryption computes: the chaining of the standard definition. -/
theorem cbcEncrypt_spec (C : BlockCipher) (hC : GoodCipher C) (iv buf : List Byte) (hiv : iv.length = C.size) (h : buf.length % C.size = 0) :
    ∃ c, cbcEncrypt C iv buf = .ok c ∧ c.length = buf.length ∧ ∀ k, k < buf.length / C.size →
      blk C.size c k = C.encrypt (xorBytes (blk C.size buf k) (if k = 0 then iv else blk C.size c (k - 1))) := by
  have hl : buf.length = buf.length / C.size * C.size := (Nat.div_mul_cancel (Nat.dvd_of_mod_eq_zero h)).symm
  generalize hn : buf.length / C.size = n at hl
  have hp := hC.pos
  rw [cbcEncrypt, if_pos h, hn]
  obtain ⟨r, e, h1, h2, h3⟩ := loop_inv (n := n) (s := buf) (body := fun buf k => do
      let n := k * C.size
      let buf ← if n = 0 then xorOnto C.size buf 0 iv else xorOnto C.size buf n (buf.drop (n - C.size))
      inPlace C.size C.encrypt buf n)
    (fun m r => r.length = n * C.size ∧
      (∀ k, k < n → k < m → blk C.size r k = C.encrypt (xorBytes (blk C.size buf k) (if k = 0 then iv else blk C.size r (k - 1)))) ∧
      (∀ k, k < n → m ≤ k → blk C.size r k = blk C.size buf k))
    ⟨hl, fun k _ hk => absurd hk (by omega), fun k _ _ => rfl⟩ (fun m hm r ⟨h1, h2, h3⟩ => by
      have hle : (m + 1) * C.size ≤ r.length := by rw [h1]; exact Nat.mul_le_mul_right _ hm
      have hle' : m * C.size + C.size ≤ r.length := by rwa [Nat.succ_mul] at hle
      have hbm : (blk C.size r m).length = C.size := blk_length hle
      -- the block xored onto block `m`
      have hx : ∃ prev, prev = (if m = 0 then iv else blk C.size r (m - 1)) ∧ prev.length = C.size ∧
          (if m * C.size = 0 then xorOnto C.size r 0 iv else xorOnto C.size r (m * C.size) (r.drop (m * C.size - C.size))) =
            .ok (overwrite r (m * C.size) (xorBytes (blk C.size r m) prev)) := by
        by_cases h0 : m = 0
        · subst h0
          refine ⟨iv, by rw [if_pos rfl], hiv, ?_⟩
          rw [if_pos (by omega), xorOnto, if_pos (by omega), Nat.zero_mul, List.take_of_length_le (l := iv) (by omega), blk, Nat.zero_mul]; rfl
        · have hmm : m * C.size - C.size = (m - 1) * C.size := by rw [Nat.sub_mul, Nat.one_mul]
          have hpos : 0 < m * C.size := Nat.mul_pos (by omega) hp
          have hms : (m - 1) * C.size + C.size = m * C.size := by rw [← Nat.succ_mul]; congr 1; omega
          refine ⟨blk C.size r (m - 1), by rw [if_neg h0], blk_length (by rw [Nat.succ_mul]; omega), ?_⟩
          rw [if_neg (by omega), xorOnto, if_pos ⟨hle', by rw [List.length_drop]; omega⟩, hmm]; rfl
      obtain ⟨prev, hprev, hpl, hxo⟩ := hx
      have hxl : (xorBytes (blk C.size r m) prev).length = C.size := by rw [xorBytes_length, hbm, hpl, Nat.min_self]
      have hol : (overwrite r (m * C.size) (xorBytes (blk C.size r m) prev)).length = n * C.size := by rw [overwrite_length (by omega)]; exact h1
      have hob : blk C.size (overwrite r (m * C.size) (xorBytes (blk C.size r m) prev)) m = xorBytes (blk C.size r m) prev := by
        rw [blk_overwrite hxl h1 hm m hm, if_pos rfl]
      have hel : (C.encrypt (xorBytes (blk C.size r m) prev)).length = C.size := hC.enc_length _ hxl
      obtain ⟨R, hRl, hR, hRe⟩ : ∃ R : List Byte, R.length = n * C.size ∧ (∀ k, k < n → blk C.size R k =
          if k = m then C.encrypt (xorBytes (blk C.size r m) prev) else blk C.size r k) ∧
          inPlace C.size C.encrypt (overwrite r (m * C.size) (xorBytes (blk C.size r m) prev)) (m * C.size) = .ok R := by
        refine ⟨overwrite (overwrite r (m * C.size) (xorBytes (blk C.size r m) prev)) (m * C.size) (C.encrypt (xorBytes (blk C.size r m) prev)), ?_, ?_, ?_⟩
        · rw [overwrite_length (by omega)]; exact hol
        · intro k hk
          rw [blk_overwrite hel hol hm k hk, blk_overwrite hxl h1 hm k hk]
          split <;> rfl
        · rw [inPlace, if_pos (by omega)]
          have := hob
          rw [blk] at this
          rw [this]
      refine ⟨R, ?_, hRl, ?_, ?_⟩
      · by_cases h0 : m * C.size = 0
        · rw [if_pos h0] at hxo
          simp only [if_pos h0, hxo, ok_bind]
          exact hRe
        · rw [if_neg h0] at hxo
          simp only [if_neg h0, hxo, ok_bind]
          exact hRe
      · intro k hk hkm
        have hprevk : (if k = 0 then iv else blk C.size R (k - 1)) = if k = 0 then iv else blk C.size r (k - 1) := by
          by_cases h0 : k = 0
          · rw [if_pos h0, if_pos h0]
          · rw [if_neg h0, if_neg h0, hR _ (by omega), if_neg (by omega)]
        rw [hprevk, hR k hk]
        by_cases hkm2 : k = m
        · subst hkm2
          rw [if_pos rfl, h3 k hk (Nat.le_refl _), hprev]
        · rw [if_neg hkm2, h2 k hk (by omega)]
      · intro k hk hkm
        rw [hR k hk, if_neg (by omega), h3 k hk (by omega)])
  exact ⟨r, e, by omega, fun k hk => h2 k hk hk⟩

/-- What holds instead: encryption chains as the standard says, and decryption gives every plaintext block xored with the previous ciphertext block (the
first with the IV). Missing: the inverse for CBC. -/
theorem C61_partial (C : BlockCipher) (hC : GoodCipher C) (iv buf : List Byte) (hiv : iv.length = C.size) (h : buf.length % C.size = 0) :
    (∃ c, ecbEncrypt C buf = .ok c ∧ ecbDecrypt C c = .ok buf) ∧
    ∃ c d, cbcEncrypt C iv buf = .ok c ∧ cbcDecrypt C c = .ok d ∧ c.length = buf.length ∧ d.length = buf.length ∧
      ∀ k, k < buf.length / C.size →
        blk C.size c k = C.encrypt (xorBytes (blk C.size buf k) (if k = 0 then iv else blk C.size c (k - 1))) ∧
        blk C.size d k = xorBytes (blk C.size buf k) (if k = 0 then iv else blk C.size c (k - 1)) := by
  refine ⟨C61_ecb C hC buf h, ?_⟩
  obtain ⟨c, e, l, b⟩ := cbcEncrypt_spec C hC iv buf hiv h
  have hl : c.length = buf.length / C.size * C.size := by rw [l]; exact (Nat.div_mul_cancel (Nat.dvd_of_mod_eq_zero h)).symm
  obtain ⟨d, e2, l2, b2⟩ := inPlace_loop C.size C.decrypt hC.pos hC.dec_length _ c hl
  refine ⟨c, d, e, by rw [cbcDecrypt, l, if_pos h, e2], l, by omega, fun k hk => ⟨b k hk, ?_⟩⟩
  have hle : ∀ m, m < buf.length / C.size → (m + 1) * C.size ≤ c.length := fun m hm => by rw [hl]; exact Nat.mul_le_mul_right _ hm
  rw [b2 k hk, b k hk, hC.inverse]
  rw [xorBytes_length, blk_length (by rw [← l]; exact hle k hk)]
  split
  · rw [hiv, Nat.min_self]
  · rw [blk_length (hle _ (by omega)), Nat.min_self]

/-- A case that meets the hypotheses of `C61_partial`. -/
example := C61_partial addCipher addCipher_good [5#8] [1#8, 2#8, 3#8] rfl rfl

/-- C61 fails for CBC. -/
theorem C61_false : ¬ C61_claim := by
  intro h
  obtain ⟨c, e1, e2⟩ := (h addCipher addCipher_good [0#8] rfl).2 [5#8] rfl
  have h1 : cbcEncrypt addCipher [5#8] [0#8] = .ok [6#8] := by decide
  rw [h1] at e1
  rw [← Except.ok.inj e1] at e2
  exact absurd e2 (by decide)

end Verif.Props
