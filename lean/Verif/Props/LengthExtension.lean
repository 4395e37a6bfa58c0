import Verif.Props.Hash
import Verif.Props.HashSizes

/-! C111: hashing can be continued from a digest. -/

namespace Verif.Props
open Verif.Model Verif.Proof

/-- What the standards append to a message of `n` bytes: RFC 1321 section 3, FIPS 180-4 section 5.1. -/
def glue : HashClass → Nat → List Byte
  | .md5, n => [0x80#8] ++ List.replicate ((64 - (n + 9) % 64) % 64) 0#8 ++ Spec.leBytes 8 (8 * n)
  | .sha2_384, n | .sha2_512, n => [0x80#8] ++ List.replicate ((128 - (n + 17) % 128) % 128) 0#8 ++ Spec.beBytes 16 (8 * n)
  | _, n => [0x80#8] ++ List.replicate ((64 - (n + 9) % 64) % 64) 0#8 ++ Spec.beBytes 8 (8 * n)

/-- A hash object with chosen chaining value and length. -/
def objectAt (A : BlockAlg) (h : A.σ) (length : Nat) : BlockState A := ⟨h, List.replicate A.B 0#8, BitVec.ofNat 64 length⟩

/-- The attack: read the chaining value from the bytes of the final state, set up an object with it and add the suffix. -/
def continueFrom (c : HashClass) (state : List Byte) (n : Nat) (suffix : List Byte) : List Byte :=
  let w := Spec.beWord 4 state
  let v := Spec.beWord 8 state
  let l i : U32 := BitVec.ofNat 32 (Spec.leOctets ((state.drop (4 * i)).take 4))
  let length := n + (glue c n).length
  match c with
  | .md5 => ((objectAt md5 (l 0, l 1, l 2, l 3) length).add suffix).data
  | .sha1 => ((objectAt sha1 (w 0, w 1, w 2, w 3, w 4) length).add suffix).data
  | .sha2_224 => ((objectAt sha224 (w 0, w 1, w 2, w 3, w 4, w 5, w 6, w 7) length).add suffix).data
  | .sha2_256 => ((objectAt sha256 (w 0, w 1, w 2, w 3, w 4, w 5, w 6, w 7) length).add suffix).data
  | .sha2_384 => ((objectAt sha384 (v 0, v 1, v 2, v 3, v 4, v 5, v 6, v 7) length).add suffix).data
  | .sha2_512 => ((objectAt sha512 (v 0, v 1, v 2, v 3, v 4, v 5, v 6, v 7) length).add suffix).data
  | _ => []

theorem beBytes_succ (k n : Nat) : Spec.beBytes (k + 1) n = BitVec.ofNat 8 (n / 256 ^ k) :: Spec.beBytes k n := by
  rw [Spec.beBytes, List.range_succ_eq_map, List.map_cons, List.map_map, Spec.beBytes]
  congr 1
  apply List.map_congr_left
  intro i hi
  show BitVec.ofNat 8 (n / 256 ^ (k + 1 - 1 - (i + 1))) = _
  rw [show k + 1 - 1 - (i + 1) = k - 1 - i by omega]

theorem beOctets_beBytes (k n : Nat) : Spec.beOctets (Spec.beBytes k n) = n % 256 ^ k := by
  have key : ∀ (k acc : Nat), (Spec.beBytes k n).foldl (fun a b => 256 * a + b.toNat) acc = acc * 256 ^ k + n % 256 ^ k := by
    intro k
    induction k with
    | zero => intro acc; simp [Spec.beBytes, Nat.mod_one]
    | succ k ih =>
      intro acc
      have e := Nat.mod_mul (a := 256 ^ k) (b := 256) (x := n)
      rw [beBytes_succ, List.foldl_cons, ih, BitVec.toNat_ofNat, show (2 : Nat) ^ 8 = 256 by rfl, Nat.pow_succ 256 k, e]
      ring
  rw [Spec.beOctets, key k 0, Nat.zero_mul, Nat.zero_add]

theorem leOctets_leBytes4 (w : U32) : BitVec.ofNat 32 (Spec.leOctets (Spec.leBytes 4 w.toNat)) = w := by
  apply BitVec.eq_of_toNat_eq
  have := w.isLt
  simp only [Spec.leBytes, Spec.leOctets, List.range, List.range.loop, List.map, List.foldr, BitVec.toNat_ofNat]
  omega

theorem word32_out (w : U32) : BitVec.ofNat 32 (Spec.beOctets (outBE32 w)) = w := by
  rw [outBE32_eq, beOctets_beBytes, Nat.mod_eq_of_lt (by have := w.isLt; omega), BitVec.ofNat_toNat, BitVec.setWidth_eq]

theorem word64_out (w : U64) : BitVec.ofNat 64 (Spec.beOctets (outBE64 w)) = w := by
  rw [outBE64_eq, beOctets_beBytes, Nat.mod_eq_of_lt (by have := w.isLt; omega), BitVec.ofNat_toNat, BitVec.setWidth_eq]

theorem outBE32_length (w : U32) : (outBE32 w).length = 4 := by simp [outBE32]
theorem outBE64_length (w : U64) : (outBE64 w).length = 8 := by simp [outBE64]

theorem word_at {α : Type} {k : Nat} {f : α → List Byte} (hf : ∀ w, (f w).length = k) : ∀ (ws : List α) (i : Nat) (w : α), ws[i]? = some w →
    ((ws.flatMap f).drop (k * i)).take k = f w
  | [], i, w, h => by simp at h
  | x :: ws, 0, w, h => by
    obtain rfl : x = w := by simpa using h
    rw [Nat.mul_zero, List.drop_zero, List.flatMap_cons, List.take_left' (hf x)]
  | x :: ws, i + 1, w, h => by
    rw [List.flatMap_cons, Nat.mul_succ, Nat.add_comm, ← List.drop_drop, List.drop_left' (hf x)]
    exact word_at hf ws i w (by simpa using h)

theorem be32_at (ws : List U32) (i : Nat) (w : U32) (h : ws[i]? = some w) : Spec.beWord 4 (ws.flatMap outBE32) i = w := by
  rw [Spec.beWord, word_at outBE32_length ws i w h]
  exact word32_out w

theorem be64_at (ws : List U64) (i : Nat) (w : U64) (h : ws[i]? = some w) : Spec.beWord 8 (ws.flatMap outBE64) i = w := by
  rw [Spec.beWord, word_at outBE64_length ws i w h]
  exact word64_out w

theorem le32_at (ws : List U32) (i : Nat) (w : U32) (h : ws[i]? = some w) :
    BitVec.ofNat 32 (Spec.leOctets (((ws.flatMap (fun (w : U32) => (List.range 4).map (fun j => ((w >>> (8 * j)) &&& 0xFF#32).setWidth 8))).drop (4 * i)).take 4)) = w := by
  rw [word_at (k := 4) (fun w => by simp) ws i w h, outLE32_eq]
  exact leOctets_leBytes4 w

variable {A : BlockAlg}

/-- An object set up with the state after the padded message continues as the original one would. -/
theorem resume (hB : A.B ∣ 2 ^ 64) (m g : List Byte) (hd : A.B ∣ (m ++ g).length) :
    Absorbed (objectAt A (Spec.iterate A.compress A.init (Spec.blocks A.B (m ++ g))) (m.length + g.length)) (m ++ g) := by
  refine ⟨by rw [List.length_append]; rfl, by simp [objectAt], rfl, ?_⟩
  rw [Nat.mod_eq_zero_of_dvd hd, Nat.div_mul_cancel hd, List.take_zero, List.drop_length]

theorem absorbed_data (hB : A.B ∣ 2 ^ 64) {s t : BlockState A} {m : List Byte} (hs : Absorbed s m) (ht : Absorbed t m) : s.data = t.data := by
  rw [data_eq' hB hs, data_eq' hB ht]

theorem resumed_digest (hB : A.B ∣ 2 ^ 64) (m g suffix junk : List Byte) (hj : junk.length = A.B) (hd : A.B ∣ (m ++ g).length) :
    ((BlockState.new A junk).add (m ++ g ++ suffix)).data =
      ((objectAt A (Spec.iterate A.compress A.init (Spec.blocks A.B (m ++ g))) (m.length + g.length)).add suffix).data := by
  refine absorbed_data hB ?_ (absorbed_add hB (resume hB m g hd) suffix)
  have := absorbed_add hB (absorbed_new (A := A) hj) (m ++ g ++ suffix)
  rwa [List.nil_append] at this

/-- The bytes that an observer of the digest, or for SHA-224 and SHA-384 of its printed form, has. -/
theorem final_state (hB : A.B ∣ 2 ^ 64) (m g junk : List Byte) (hj : junk.length = A.B) (hm : A.L ≤ 8 ∨ m.length < 2 ^ 61)
    (hg : Spec.pad A.B A.L (fieldOf A) m = m ++ g) :
    ((BlockState.new A junk).add m).data = A.out (Spec.iterate A.compress A.init (Spec.blocks A.B (m ++ g))) := by
  have := absorbed_add hB (absorbed_new (A := A) hj) m
  rw [List.nil_append] at this
  rw [data_eq hB this hm, hg]

/-- One class: the digest of the continued message from the bytes of the final state. -/
theorem extension (hB : A.B ∣ 2 ^ 64) (m g suffix junk : List Byte) (hj : junk.length = A.B) (hd : A.B ∣ (m ++ g).length) (hm : A.L ≤ 8 ∨ m.length < 2 ^ 61)
    (hg : Spec.pad A.B A.L (fieldOf A) m = m ++ g) (parse : List Byte → A.σ) (hp : ∀ h, parse (A.out h) = h) :
    ((BlockState.new A junk).add (m ++ g ++ suffix)).data =
      ((objectAt A (parse ((BlockState.new A junk).add m).data) (m.length + g.length)).add suffix).data := by
  rw [final_state hB m g junk hj hm hg, hp]
  exact resumed_digest hB m g suffix junk hj hd

theorem glue_dvd (n : Nat) : 64 ∣ n + (glue .md5 n).length ∧ 64 ∣ n + (glue .sha1 n).length ∧ 64 ∣ n + (glue .sha2_224 n).length ∧ 64 ∣ n + (glue .sha2_256 n).length ∧
    128 ∣ n + (glue .sha2_384 n).length ∧ 128 ∣ n + (glue .sha2_512 n).length := by
  simp only [glue, List.length_append, List.length_cons, List.length_nil, List.length_replicate, Spec.leBytes, Spec.beBytes, List.length_map, List.length_range]
  omega

def parse256 (l : List Byte) : Sha2H 32 := let w := Spec.beWord 4 l; (w 0, w 1, w 2, w 3, w 4, w 5, w 6, w 7)
def parse512 (l : List Byte) : Sha2H 64 := let w := Spec.beWord 8 l; (w 0, w 1, w 2, w 3, w 4, w 5, w 6, w 7)

theorem parse256_out (h : Sha2H 32) : parse256 (sha256Out h) = h := by
  obtain ⟨a, b, c, d, e, f, g, h⟩ := h
  simp only [parse256, sha256Out]
  rw [be32_at _ 0 a rfl, be32_at _ 1 b rfl, be32_at _ 2 c rfl, be32_at _ 3 d rfl, be32_at _ 4 e rfl, be32_at _ 5 f rfl, be32_at _ 6 g rfl, be32_at _ 7 h rfl]

theorem parse512_out (h : Sha2H 64) : parse512 (sha512Out h) = h := by
  obtain ⟨a, b, c, d, e, f, g, h⟩ := h
  simp only [parse512, sha512Out]
  rw [be64_at _ 0 a rfl, be64_at _ 1 b rfl, be64_at _ 2 c rfl, be64_at _ 3 d rfl, be64_at _ 4 e rfl, be64_at _ 5 f rfl, be64_at _ 6 g rfl, be64_at _ 7 h rfl]

def parseMd5 (state : List Byte) : Md5H :=
  let l i : U32 := BitVec.ofNat 32 (Spec.leOctets ((state.drop (4 * i)).take 4)); (l 0, l 1, l 2, l 3)
def parseSha1 (l : List Byte) : Sha1H := let w := Spec.beWord 4 l; (w 0, w 1, w 2, w 3, w 4)

theorem parseMd5_out (h : Md5H) : parseMd5 (md5Out h) = h := by
  obtain ⟨a, b, c, d⟩ := h
  simp only [parseMd5, md5Out]
  rw [le32_at _ 0 a rfl, le32_at _ 1 b rfl, le32_at _ 2 c rfl, le32_at _ 3 d rfl]

theorem parseSha1_out (h : Sha1H) : parseSha1 (sha1Out h) = h := by
  obtain ⟨a, b, c, d, e⟩ := h
  simp only [parseSha1, sha1Out]
  rw [be32_at _ 0 a rfl, be32_at _ 1 b rfl, be32_at _ 2 c rfl, be32_at _ 3 d rfl, be32_at _ 4 e rfl]

/-- C111: for MD5, SHA-1, SHA-256 and SHA-512 the digest of a message gives the digest of every message that begins with it and its padding, by way of the
library's own classes; only the length of the message is needed. -/
theorem C111_digest (c : HashClass) (hc : c = .md5 ∨ c = .sha1 ∨ c = .sha2_256 ∨ c = .sha2_512) (m suffix : List Byte) (hm : m.length < 2 ^ 61) :
    hashOf c (m ++ glue c m.length ++ suffix) = continueFrom c (hashOf c m) m.length suffix := by
  have g := glue_dvd m.length
  rcases hc with rfl | rfl | rfl | rfl
  · exact extension (A := md5) (by decide) m (glue .md5 m.length) suffix _ List.length_replicate (by rw [List.length_append]; exact g.1) (Or.inl (by decide))
      (by simp [Spec.pad, glue, fieldOf, md5]) parseMd5 parseMd5_out
  · exact extension (A := sha1) (by decide) m (glue .sha1 m.length) suffix _ List.length_replicate (by rw [List.length_append]; exact g.2.1) (Or.inl (by decide))
      (by simp [Spec.pad, glue, fieldOf, sha1]) parseSha1 parseSha1_out
  · exact extension (A := sha256) (by decide) m (glue .sha2_256 m.length) suffix _ List.length_replicate (by rw [List.length_append]; exact g.2.2.2.1) (Or.inl (by decide))
      (by simp [Spec.pad, glue, fieldOf, sha256]) parse256 parse256_out
  · exact extension (A := sha512) (by decide) m (glue .sha2_512 m.length) suffix _ List.length_replicate (by rw [List.length_append]; exact g.2.2.2.2.2) (Or.inr hm)
      (by simp [Spec.pad, glue, fieldOf, sha512]) parse512 parse512_out

/-- A case that meets the hypotheses of `C111_digest`. -/
example := C111_digest .sha2_512 (.inr (.inr (.inr rfl))) [1#8, 2#8] [3#8] (by decide)

/-- The whole final state of a SHA-224 or SHA-384 object, which its string shows. -/
theorem state224 (m junk : List Byte) (hj : junk.length = 64) (g : List Byte) (hg : Spec.pad 64 8 (Spec.beBytes 8) m = m ++ g) :
    let s := (BlockState.new sha224 junk).add m
    BlockState.data (A := sha256) ⟨s.h, s.chunk, s.msglength⟩ = sha256Out (Spec.iterate sha224.compress sha224.init (Spec.blocks 64 (m ++ g))) := by
  intro s
  obtain ⟨h, h1, h2⟩ := recast_data (A := sha256) sha224.init sha256Out ⟨s.h, s.chunk, s.msglength⟩
  have h3 : recast (A := sha256) sha224.init sha256Out ⟨s.h, s.chunk, s.msglength⟩ = (BlockState.new { sha256 with init := sha224.init } junk).add m :=
    (recast_add (A := sha224) sha224.init sha256Out (BlockState.new sha224 junk) m).symm
  exact (h1.trans (h2.symm.trans (congrArg BlockState.data h3))).trans
    (final_state (A := { sha256 with init := sha224.init }) (by decide) m g junk hj (Or.inl (by decide)) hg)

theorem state384 (m junk : List Byte) (hj : junk.length = 128) (g : List Byte) (hm : m.length < 2 ^ 61) (hg : Spec.pad 128 16 (Spec.beBytes 16) m = m ++ g) :
    let s := (BlockState.new sha384 junk).add m
    BlockState.data (A := sha512) ⟨s.h, s.chunk, s.msglength⟩ = sha512Out (Spec.iterate sha384.compress sha384.init (Spec.blocks 128 (m ++ g))) := by
  intro s
  obtain ⟨h, h1, h2⟩ := recast_data (A := sha512) sha384.init sha512Out ⟨s.h, s.chunk, s.msglength⟩
  have h3 : recast (A := sha512) sha384.init sha512Out ⟨s.h, s.chunk, s.msglength⟩ = (BlockState.new { sha512 with init := sha384.init } junk).add m :=
    (recast_add (A := sha384) sha384.init sha512Out (BlockState.new sha384 junk) m).symm
  exact (h1.trans (h2.symm.trans (congrArg BlockState.data h3))).trans
    (final_state (A := { sha512 with init := sha384.init }) (by decide) m g junk hj (Or.inr hm) hg)

/-- C111: the string conversion gives the digest of every message that begins with the hashed one and its padding, for all six classes. For SHA-224 and SHA-384, whose
digests are truncated to prevent this, it works because the string shows the whole state (C10). -/
theorem C111_string (c : HashClass) (hc : c = .md5 ∨ c = .sha1 ∨ c = .sha2_224 ∨ c = .sha2_256 ∨ c = .sha2_384 ∨ c = .sha2_512) (m suffix : List Byte)
    (hm : m.length < 2 ^ 61) : ∃ state, Spec.decodeHex (hstring c (hadd c (hnew0 c) m)) = some state ∧
      hashOf c (m ++ glue c m.length ++ suffix) = continueFrom c state m.length suffix := by
  have g := glue_dvd m.length
  have full : c = .md5 ∨ c = .sha1 ∨ c = .sha2_256 ∨ c = .sha2_512 → c ≠ .sha2_224 ∧ c ≠ .sha2_384 → ∃ state, Spec.decodeHex (hstring c (hadd c (hnew0 c) m)) = some state ∧
      hashOf c (m ++ glue c m.length ++ suffix) = continueFrom c state m.length suffix :=
    fun h1 h2 => ⟨hashOf c m, ((C10_partial c _).1 h2).2, C111_digest c h1 m suffix hm⟩
  rcases hc with rfl | rfl | rfl | rfl | rfl | rfl
  · exact full (by simp) (by simp)
  · exact full (by simp) (by simp)
  · refine ⟨_, decodeHex_toHex _, ?_⟩
    have hg : Spec.pad 64 8 (Spec.beBytes 8) m = m ++ glue .sha2_224 m.length := by simp [Spec.pad, glue]
    have e := state224 m (List.replicate 64 0#8) List.length_replicate _ hg
    have r := resumed_digest (A := sha224) (by decide) m (glue .sha2_224 m.length) suffix (List.replicate 64 0#8) List.length_replicate
      (by rw [List.length_append]; exact g.2.2.1)
    refine r.trans ?_
    have p := parse256_out (Spec.iterate sha224.compress sha224.init (Spec.blocks 64 (m ++ glue .sha2_224 m.length)))
    rw [← e] at p
    exact congrArg (fun h : Sha2H 32 => ((objectAt sha224 h (m.length + (glue .sha2_224 m.length).length)).add suffix).data) p.symm
  · exact full (by simp) (by simp)
  · refine ⟨_, decodeHex_toHex _, ?_⟩
    have hg : Spec.pad 128 16 (Spec.beBytes 16) m = m ++ glue .sha2_384 m.length := by simp [Spec.pad, glue]
    have e := state384 m (List.replicate 128 0#8) List.length_replicate _ hm hg
    have r := resumed_digest (A := sha384) (by decide) m (glue .sha2_384 m.length) suffix (List.replicate 128 0#8) List.length_replicate
      (by rw [List.length_append]; exact g.2.2.2.2.1)
    refine r.trans ?_
    have p := parse512_out (Spec.iterate sha384.compress sha384.init (Spec.blocks 128 (m ++ glue .sha2_384 m.length)))
    rw [← e] at p
    exact congrArg (fun h : Sha2H 64 => ((objectAt sha384 h (m.length + (glue .sha2_384 m.length).length)).add suffix).data) p.symm
  · exact full (by simp) (by simp)

/-- The hypotheses hold for a short message. -/
example : (ascii "secret").length < 2 ^ 61 ∧ glue .sha2_256 6 = 0x80#8 :: List.replicate 56 0#8 ++ [48#8] := by decide +kernel

end Verif.Props
