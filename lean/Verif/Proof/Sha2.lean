import Verif.Proof.BlockHash
import Verif.Proof.Words

/-! The block functions of the model refine FIPS 180-4. -/

namespace Verif.Proof
open Verif.Model

theorem mem_blocks_length {α : Type} {B : Nat} : ∀ (m : List α), ∀ b ∈ Spec.blocks B m, b.length = B := by
  intro m
  induction hm : m.length using Nat.strong_induction_on generalizing m with
  | _ n ih =>
    intro b hb
    rw [Spec.blocks] at hb
    split at hb
    · rename_i h
      rcases List.mem_cons.mp hb with rfl | hb
      · simp; omega
      · exact ih (m.drop B).length (by simp; omega) _ rfl b hb
    · simp at hb

/-- A map between chaining values that commutes with the block functions commutes with the iteration. -/
theorem iterate_map {σ τ : Type} {c : σ → List Byte → σ} {c' : τ → List Byte → τ} {φ : σ → τ} {B : Nat}
    (h : ∀ s b, b.length = B → φ (c s b) = c' (φ s) b) :
    ∀ (bs : List (List Byte)) (iv : σ), (∀ b ∈ bs, b.length = B) →
      φ (Spec.iterate c iv bs) = Spec.iterate c' (φ iv) bs
  | [], _, _ => rfl
  | b :: bs, iv, hb => by
      show φ (Spec.iterate c (c iv b) bs) = Spec.iterate c' (c' (φ iv) b) bs
      rw [iterate_map h bs _ (fun x hx => hb x (List.mem_cons_of_mem _ hx)), h _ _ (hb b List.mem_cons_self)]

theorem getD_map_range {α : Type} (f : Nat → α) (n j : Nat) (d : α) (h : j < n) :
    ((List.range n).map f).getD j d = f j := by
  rw [List.getD_eq_getElem?_getD, List.getElem?_map, List.getElem?_range h]
  rfl

theorem add_swap {n : Nat} (x y z : BitVec n) : x + y + z = x + z + y := by
  rw [BitVec.add_assoc, BitVec.add_comm y z, BitVec.add_assoc]

/-! ### SHA-1 -/

/-- Chaining value of the model as record of the specification. -/
def sha1φ (h : Sha1H) : Spec.Sha1Vars := ⟨h.1, h.2.1, h.2.2.1, h.2.2.2.1, h.2.2.2.2⟩

theorem sha1W_eq {chunk : List Byte} (hc : chunk.length = 64) {j : Nat} (hj : j < 80) :
    (Model.sha1W chunk).getD j 0#32 = Spec.sha1W chunk j := by
  unfold Model.sha1W
  have hl : (sha1Load chunk).length = 16 := by simp [sha1Load]
  have := build_spec 0#32
    (fun w i => rotate (w.getD (i - 3) 0#32 ^^^ w.getD (i - 8) 0#32 ^^^ w.getD (i - 14) 0#32 ^^^ w.getD (i - 16) 0#32) 1)
    (Spec.sha1W chunk) 64 (sha1Load chunk)
    (by
      intro j hj
      rw [hl] at hj
      rw [Spec.sha1W, dif_pos hj, sha1Load, getD_map_range _ _ _ _ hj]
      exact loadWord4 (by omega))
    (by
      intro w hw h
      rw [hl] at hw
      rw [h _ (by omega), h _ (by omega), h _ (by omega), h _ (by omega), rotate_eq _ (by omega) (by omega)]
      conv => rhs; rw [Spec.sha1W, dif_neg (by omega)])
  rw [hl] at this
  exact this.2 j (by omega)

theorem sha1Vars_eq {chunk : List Byte} (hc : chunk.length = 64) (h : Sha1H) : ∀ n ≤ 80,
    sha1φ ((List.range n).foldl (sha1Step (Model.sha1W chunk)) h) = Spec.sha1Vars chunk (sha1φ h) n := by
  intro n
  induction n with
  | zero => intro _; rfl
  | succ n ih =>
    intro hn
    rw [List.range_succ, List.foldl_append, List.foldl_cons, List.foldl_nil, Spec.sha1Vars, ← ih (by omega)]
    generalize (List.range n).foldl (sha1Step (Model.sha1W chunk)) h = st
    obtain ⟨a, b, c, d, e⟩ := st
    simp only [sha1Step, sha1φ, sha1W_eq hc (show n < 80 by omega), rotate_eq _ (show 0 < 5 by omega) (show 5 < 32 by omega),
      rotate_eq _ (show 0 < 30 by omega) (show 30 < 32 by omega), ch_eq, maj_eq, Spec.sha1F, Spec.sha1K]
    congr 1
    by_cases h1 : n < 20
    · simp only [h1, show n ≤ 19 by omega, if_true]
      exact add_swap _ _ _
    · by_cases h2 : n < 40
      · simp only [h1, h2, show ¬ n ≤ 19 by omega, show n ≤ 39 by omega, if_true, if_false, Spec.Parity]
        exact add_swap _ _ _
      · by_cases h3 : n < 60
        · simp only [h1, h2, h3, show ¬ n ≤ 19 by omega, show ¬ n ≤ 39 by omega, show n ≤ 59 by omega, if_true, if_false]
          exact add_swap _ _ _
        · simp only [h1, h2, h3, show ¬ n ≤ 19 by omega, show ¬ n ≤ 39 by omega, show ¬ n ≤ 59 by omega, if_false, Spec.Parity]
          exact add_swap _ _ _

theorem sha1Compress_eq (h : Sha1H) (chunk : List Byte) (hc : chunk.length = 64) :
    sha1φ (Model.sha1Compress h chunk) = Spec.sha1Compress (sha1φ h) chunk := by
  unfold Model.sha1Compress Spec.sha1Compress
  have := sha1Vars_eq hc h 80 (le_refl _)
  simp only [← this]
  generalize (List.range 80).foldl (sha1Step (Model.sha1W chunk)) h = st
  simp only [sha1φ, BitVec.add_comm]

theorem sha1Out_eq (h : Sha1H) : sha1Out h =
    [(sha1φ h).a, (sha1φ h).b, (sha1φ h).c, (sha1φ h).d, (sha1φ h).e].flatMap (fun x => Spec.beBytes 4 x.toNat) := by
  simp only [sha1Out, sha1φ, outBE32_eq, List.flatMap_cons, List.flatMap_nil]

theorem vars_mk {F : Spec.Sha2Family} {a b c d e f g h a' b' c' d' e' f' g' h' : F.Word} (ha : a = a') (hb : b = b')
    (hc : c = c') (hd : d = d') (he : e = e') (hf : f = f') (hg : g = g') (hh : h = h') :
    (⟨a, b, c, d, e, f, g, h⟩ : F.Vars) = ⟨a', b', c', d', e', f', g', h'⟩ := by
  subst ha hb hc hd he hf hg hh; rfl

theorem primes80_eq : Spec.primes80 = [2, 3, 5, 7, 11, 13, 17, 19, 23, 29, 31, 37, 41, 43, 47, 53, 59, 61, 67, 71, 73, 79, 83, 89, 97, 101, 103, 107, 109, 113, 127, 131, 137, 139, 149, 151, 157, 163, 167, 173,
  179, 181, 191, 193, 197, 199, 211, 223, 227, 229, 233, 239, 241, 251, 257, 263, 269, 271, 277, 281, 283, 293, 307, 311, 313, 317, 331, 337, 347, 349, 353, 359, 367, 373, 379, 383, 389, 397, 401, 409] := by
  decide +kernel

/-! ### SHA-224 / SHA-256 -/

/-- Chaining value of the model as record of the specification. -/
def sha2φ32 (w : Sha2H 32) : Spec.family32.Vars :=
  ⟨w.1, w.2.1, w.2.2.1, w.2.2.2.1, w.2.2.2.2.1, w.2.2.2.2.2.1, w.2.2.2.2.2.2.1, w.2.2.2.2.2.2.2⟩

theorem K256_eq : ∀ t < 64, K256.getD t 0#32 = Spec.family32.K t := by
  have : (List.range 64).all (fun t => K256.getD t 0#32 == (Spec.family32.K t : BitVec 32)) = true := by
    simp only [Spec.Sha2Family.K, primes80_eq]
    decide +kernel
  intro t ht
  exact eq_of_beq (List.all_eq_true.mp this t (List.mem_range.mpr ht))

/-- The schedule of the specification at its concrete word type. -/
def W32 (chunk : List Byte) (t : Nat) : BitVec 32 := Spec.family32.W chunk t

theorem W32_lt {chunk : List Byte} {t : Nat} (h : t < 16) : W32 chunk t = Spec.beWord 4 chunk t := by
  rw [W32, Spec.Sha2Family.W, dif_pos h]; rfl

theorem W32_ge {chunk : List Byte} {t : Nat} (h : 16 ≤ t) : W32 chunk t =
    ((W32 chunk (t - 2)).rotateRight 17 ^^^ (W32 chunk (t - 2)).rotateRight 19 ^^^ (W32 chunk (t - 2) >>> 10)) + W32 chunk (t - 7) +
    ((W32 chunk (t - 15)).rotateRight 7 ^^^ (W32 chunk (t - 15)).rotateRight 18 ^^^ (W32 chunk (t - 15) >>> 3)) + W32 chunk (t - 16) := by
  rw [W32, Spec.Sha2Family.W, dif_neg (by omega)]; rfl

theorem sha256W_eq {chunk : List Byte} (hc : chunk.length = 64) {j : Nat} (hj : j < 64) :
    (sha256W chunk).getD j 0#32 = W32 chunk j := by
  unfold sha256W
  generalize hl : ((List.range 16).map (fun t =>
      (byte32 chunk (t * 4) <<< 24) + (byte32 chunk (t * 4 + 1) <<< 16) + (byte32 chunk (t * 4 + 2) <<< 8) +
        byte32 chunk (t * 4 + 3))) = l0
  have hl16 : l0.length = 16 := by rw [← hl]; simp
  have := build_spec 0#32
    (fun W t => (rotr32 (W.getD (t - 2) 0#32) 17 ^^^ rotr32 (W.getD (t - 2) 0#32) 19 ^^^ (W.getD (t - 2) 0#32 >>> 10)) +
      (rotr32 (W.getD (t - 15) 0#32) 7 ^^^ rotr32 (W.getD (t - 15) 0#32) 18 ^^^ (W.getD (t - 15) 0#32 >>> 3)) +
      W.getD (t - 7) 0#32 + W.getD (t - 16) 0#32)
    (W32 chunk) 48 l0
    (by
      intro j hj
      rw [hl16] at hj
      rw [W32_lt hj, ← hl, getD_map_range _ _ _ _ hj]
      exact beWord4 (by omega))
    (by
      intro w hw h
      rw [hl16] at hw
      rw [h _ (by omega), h _ (by omega), h _ (by omega), h _ (by omega), rotr32_eq _ (by omega), rotr32_eq _ (by omega),
        rotr32_eq _ (by omega), rotr32_eq _ (by omega)]
      rw [W32_ge (t := w.length) (by omega)]
      congr 1
      rw [BitVec.add_assoc, BitVec.add_assoc, BitVec.add_comm (W32 chunk (w.length - 7))])
  rw [hl16] at this
  exact this.2 j (by omega)

theorem sha256Vars_eq {chunk : List Byte} (hc : chunk.length = 64) (h : Sha2H 32) : ∀ n ≤ 64,
    sha2φ32 ((List.range n).foldl (sha256Step (sha256W chunk)) h) = Spec.family32.vars chunk (sha2φ32 h) n := by
  intro n
  induction n with
  | zero => intro _; rfl
  | succ n ih =>
    intro hn
    rw [List.range_succ, List.foldl_append, List.foldl_cons, List.foldl_nil, Spec.Sha2Family.vars, ← ih (by omega)]
    generalize (List.range n).foldl (sha256Step (sha256W chunk)) h = st
    obtain ⟨a, b, c, d, e, f, g, h⟩ := st
    simp only [sha256Step, sha2φ32, sha256W_eq hc (show n < 64 by omega), K256_eq n (by omega), ch_eq,
      rotr32_eq _ (show 6 < 32 by omega), rotr32_eq _ (show 11 < 32 by omega), rotr32_eq _ (show 25 < 32 by omega),
      rotr32_eq _ (show 2 < 32 by omega), rotr32_eq _ (show 13 < 32 by omega), rotr32_eq _ (show 22 < 32 by omega)]
    rfl

theorem sha256Compress_eq (h : Sha2H 32) (chunk : List Byte) (hc : chunk.length = 64) :
    sha2φ32 (sha256Compress h chunk) = Spec.family32.compress (sha2φ32 h) chunk := by
  unfold sha256Compress Spec.Sha2Family.compress
  have := sha256Vars_eq hc h 64 (le_refl _)
  simp only [show Spec.family32.rounds = 64 from rfl, ← this]
  generalize (List.range 64).foldl (sha256Step (sha256W chunk)) h = st
  simp only [sha2φ32, sha2Add]
  exact vars_mk (BitVec.add_comm _ _) (BitVec.add_comm _ _) (BitVec.add_comm _ _) (BitVec.add_comm _ _)
    (BitVec.add_comm _ _) (BitVec.add_comm _ _) (BitVec.add_comm _ _) (BitVec.add_comm _ _)

theorem sha256Out_eq (w : Sha2H 32) : sha256Out w = Spec.family32.bytes (sha2φ32 w) := by
  simp only [sha256Out, Spec.Sha2Family.bytes, sha2φ32, outBE32_eq, List.flatMap_cons, List.flatMap_nil]
  rfl

/-! ### SHA-384 / SHA-512 -/

/-- Chaining value of the model as record of the specification. -/
def sha2φ64 (w : Sha2H 64) : Spec.family64.Vars :=
  ⟨w.1, w.2.1, w.2.2.1, w.2.2.2.1, w.2.2.2.2.1, w.2.2.2.2.2.1, w.2.2.2.2.2.2.1, w.2.2.2.2.2.2.2⟩

theorem K512_eq : ∀ t < 80, K512.getD t 0#64 = Spec.family64.K t := by
  have : (List.range 80).all (fun t => K512.getD t 0#64 == (Spec.family64.K t : BitVec 64)) = true := by
    simp only [Spec.Sha2Family.K, primes80_eq]
    decide +kernel
  intro t ht
  exact eq_of_beq (List.all_eq_true.mp this t (List.mem_range.mpr ht))

/-- The schedule of the specification at its concrete word type. -/
def W64 (chunk : List Byte) (t : Nat) : BitVec 64 := Spec.family64.W chunk t

theorem W64_lt {chunk : List Byte} {t : Nat} (h : t < 16) : W64 chunk t = Spec.beWord 8 chunk t := by
  rw [W64, Spec.Sha2Family.W, dif_pos h]; rfl

theorem W64_ge {chunk : List Byte} {t : Nat} (h : 16 ≤ t) : W64 chunk t =
    ((W64 chunk (t - 2)).rotateRight 19 ^^^ (W64 chunk (t - 2)).rotateRight 61 ^^^ (W64 chunk (t - 2) >>> 6)) + W64 chunk (t - 7) +
    ((W64 chunk (t - 15)).rotateRight 1 ^^^ (W64 chunk (t - 15)).rotateRight 8 ^^^ (W64 chunk (t - 15) >>> 7)) + W64 chunk (t - 16) := by
  rw [W64, Spec.Sha2Family.W, dif_neg (by omega)]; rfl

theorem sha512W_eq {chunk : List Byte} (hc : chunk.length = 128) {j : Nat} (hj : j < 80) :
    (sha512W chunk).getD j 0#64 = W64 chunk j := by
  unfold sha512W
  generalize hl : ((List.range 16).map (fun t =>
      (byte64 chunk (t * 8) <<< 56) + (byte64 chunk (t * 8 + 1) <<< 48) + (byte64 chunk (t * 8 + 2) <<< 40) +
      (byte64 chunk (t * 8 + 3) <<< 32) + (byte64 chunk (t * 8 + 4) <<< 24) + (byte64 chunk (t * 8 + 5) <<< 16) +
      (byte64 chunk (t * 8 + 6) <<< 8) + (byte64 chunk (t * 8 + 7) <<< 0))) = l0
  have hl16 : l0.length = 16 := by rw [← hl]; simp
  have := build_spec 0#64
    (fun W t => (rotr64 (W.getD (t - 2) 0#64) 19 ^^^ rotr64 (W.getD (t - 2) 0#64) 61 ^^^ (W.getD (t - 2) 0#64 >>> 6)) +
      (rotr64 (W.getD (t - 15) 0#64) 1 ^^^ rotr64 (W.getD (t - 15) 0#64) 8 ^^^ (W.getD (t - 15) 0#64 >>> 7)) +
      W.getD (t - 7) 0#64 + W.getD (t - 16) 0#64)
    (W64 chunk) 64 l0
    (by
      intro j hj
      rw [hl16] at hj
      rw [W64_lt hj, ← hl, getD_map_range _ _ _ _ hj]
      exact beWord8 (by omega))
    (by
      intro w hw h
      rw [hl16] at hw
      rw [h _ (by omega), h _ (by omega), h _ (by omega), h _ (by omega), rotr64_eq _ (by omega), rotr64_eq _ (by omega),
        rotr64_eq _ (by omega), rotr64_eq _ (by omega)]
      rw [W64_ge (t := w.length) (by omega)]
      congr 1
      rw [BitVec.add_assoc, BitVec.add_assoc, BitVec.add_comm (W64 chunk (w.length - 7))])
  rw [hl16] at this
  exact this.2 j (by omega)

theorem sha512Vars_eq {chunk : List Byte} (hc : chunk.length = 128) (h : Sha2H 64) : ∀ n ≤ 80,
    sha2φ64 ((List.range n).foldl (sha512Step (sha512W chunk)) h) = Spec.family64.vars chunk (sha2φ64 h) n := by
  intro n
  induction n with
  | zero => intro _; rfl
  | succ n ih =>
    intro hn
    rw [List.range_succ, List.foldl_append, List.foldl_cons, List.foldl_nil, Spec.Sha2Family.vars, ← ih (by omega)]
    generalize (List.range n).foldl (sha512Step (sha512W chunk)) h = st
    obtain ⟨a, b, c, d, e, f, g, h⟩ := st
    simp only [sha512Step, sha2φ64, sha512W_eq hc (show n < 80 by omega), K512_eq n (by omega), ch_eq,
      rotr64_eq _ (show 14 < 64 by omega), rotr64_eq _ (show 18 < 64 by omega), rotr64_eq _ (show 41 < 64 by omega),
      rotr64_eq _ (show 28 < 64 by omega), rotr64_eq _ (show 34 < 64 by omega), rotr64_eq _ (show 39 < 64 by omega)]
    rfl

theorem sha512Compress_eq (h : Sha2H 64) (chunk : List Byte) (hc : chunk.length = 128) :
    sha2φ64 (sha512Compress h chunk) = Spec.family64.compress (sha2φ64 h) chunk := by
  unfold sha512Compress Spec.Sha2Family.compress
  have := sha512Vars_eq hc h 80 (le_refl _)
  simp only [show Spec.family64.rounds = 80 from rfl, ← this]
  generalize (List.range 80).foldl (sha512Step (sha512W chunk)) h = st
  simp only [sha2φ64, sha2Add]
  exact vars_mk (BitVec.add_comm _ _) (BitVec.add_comm _ _) (BitVec.add_comm _ _) (BitVec.add_comm _ _)
    (BitVec.add_comm _ _) (BitVec.add_comm _ _) (BitVec.add_comm _ _) (BitVec.add_comm _ _)

theorem sha512Out_eq (w : Sha2H 64) : sha512Out w = Spec.family64.bytes (sha2φ64 w) := by
  simp only [sha512Out, Spec.Sha2Family.bytes, sha2φ64, outBE64_eq, List.flatMap_cons, List.flatMap_nil]
  rfl

/-! ### Initial values -/

theorem sha256_iv : sha2φ32 Model.sha256.init = Spec.family32.ivOf (fun i => Spec.fracRoot 2 32 (Spec.primes80.getD i 0)) := by
  simp only [Spec.Sha2Family.ivOf, sha2φ32, primes80_eq]
  refine vars_mk ?_ ?_ ?_ ?_ ?_ ?_ ?_ ?_ <;> apply BitVec.eq_of_toNat_eq <;> decide +kernel

theorem sha224_iv : sha2φ32 Model.sha224.init = Spec.family32.ivOf (fun i => Spec.fracRoot 2 64 (Spec.primes80.getD (8 + i) 0)) := by
  simp only [Spec.Sha2Family.ivOf, sha2φ32, primes80_eq]
  refine vars_mk ?_ ?_ ?_ ?_ ?_ ?_ ?_ ?_ <;> apply BitVec.eq_of_toNat_eq <;> decide +kernel

theorem sha512_iv : sha2φ64 Model.sha512.init = Spec.family64.ivOf (fun i => Spec.fracRoot 2 64 (Spec.primes80.getD i 0)) := by
  simp only [Spec.Sha2Family.ivOf, sha2φ64, primes80_eq]
  refine vars_mk ?_ ?_ ?_ ?_ ?_ ?_ ?_ ?_ <;> apply BitVec.eq_of_toNat_eq <;> decide +kernel

theorem sha384_iv : sha2φ64 Model.sha384.init = Spec.family64.ivOf (fun i => Spec.fracRoot 2 64 (Spec.primes80.getD (8 + i) 0)) := by
  simp only [Spec.Sha2Family.ivOf, sha2φ64, primes80_eq]
  refine vars_mk ?_ ?_ ?_ ?_ ?_ ?_ ?_ ?_ <;> apply BitVec.eq_of_toNat_eq <;> decide +kernel

end Verif.Proof
