import Verif.Model.Hash
import Verif.Spec.Hash
import Verif.Proof.BlockHash
import Verif.Proof.Md5
import Verif.Proof.Sha2
import Verif.Proof.Sha3
import Verif.Proof.Crc

/-! The invariant "has absorbed `m`" for every hash class, and the digest of an object that satisfies it. -/

namespace Verif.Proof
open Verif.Model

/-- The object `s` of class `c` has absorbed exactly the bytes `m`. -/
def HAbs (c : HashClass) (s : HState c) (m : List Byte) : Prop :=
  match c, s with
  | .md5, s => Absorbed (A := md5) s m
  | .sha1, s => Absorbed (A := sha1) s m
  | .sha2_224, s => Absorbed (A := sha224) s m
  | .sha2_256, s => Absorbed (A := sha256) s m
  | .sha2_384, s => Absorbed (A := sha384) s m
  | .sha2_512, s => Absorbed (A := sha512) s m
  | .sha3_224, s => Absorbed3 224 s m
  | .sha3_256, s => Absorbed3 256 s m
  | .sha3_384, s => Absorbed3 384 s m
  | .sha3_512, s => Absorbed3 512 s m
  | .crc32, s => s = crcAdd crcNew m

theorem habs_new (c : HashClass) (junk : List Byte) (hj : junk.length = bufSize c) : HAbs c (hnew c junk) [] := by
  cases c
  case md5 => exact absorbed_new (A := md5) hj
  case sha1 => exact absorbed_new (A := sha1) hj
  case sha2_224 => exact absorbed_new (A := sha224) hj
  case sha2_256 => exact absorbed_new (A := sha256) hj
  case sha2_384 => exact absorbed_new (A := sha384) hj
  case sha2_512 => exact absorbed_new (A := sha512) hj
  case sha3_224 => exact absorbed3_new 224 (by decide)
  case sha3_256 => exact absorbed3_new 256 (by decide)
  case sha3_384 => exact absorbed3_new 384 (by decide)
  case sha3_512 => exact absorbed3_new 512 (by decide)
  case crc32 => rfl

theorem habs_add {c : HashClass} {s : HState c} {m : List Byte} (h : HAbs c s m) (d : List Byte)
    (hm : sha3Size c ≠ 0 → m.length < 2 ^ 64) : HAbs c (hadd c s d) (m ++ d) := by
  cases c
  case md5 => exact absorbed_add (A := md5) (by decide) h d
  case sha1 => exact absorbed_add (A := sha1) (by decide) h d
  case sha2_224 => exact absorbed_add (A := sha224) (by decide) h d
  case sha2_256 => exact absorbed_add (A := sha256) (by decide) h d
  case sha2_384 => exact absorbed_add (A := sha384) (by decide) h d
  case sha2_512 => exact absorbed_add (A := sha512) (by decide) h d
  case sha3_224 => exact absorbed3_add (by decide) (by decide) h d (hm (by decide))
  case sha3_256 => exact absorbed3_add (by decide) (by decide) h d (hm (by decide))
  case sha3_384 => exact absorbed3_add (by decide) (by decide) h d (hm (by decide))
  case sha3_512 => exact absorbed3_add (by decide) (by decide) h d (hm (by decide))
  case crc32 =>
    show crcAdd _ _ = crcAdd _ _
    have h : _ = _ := h
    rw [h, crcAdd, crcAdd, crcAdd, List.foldl_append]

theorem habs_foldl {c : HashClass} : ∀ (ds : List (List Byte)) {s : HState c} {m : List Byte}, HAbs c s m →
    (sha3Size c ≠ 0 → (m ++ ds.flatten).length < 2 ^ 64) → HAbs c (ds.foldl (hadd c) s) (m ++ ds.flatten)
  | [], s, m, h, _ => by simpa using h
  | d :: ds, s, m, h, hl => by
      rw [List.foldl_cons, List.flatten_cons, ← List.append_assoc]
      rw [List.flatten_cons, ← List.append_assoc] at hl
      refine habs_foldl ds (habs_add h d (fun h0 => ?_)) hl
      have := hl h0
      simp only [List.length_append] at this
      omega

/-! ### Packing bits to bytes -/

theorem foldr_bits (b : Byte) :
    BitVec.ofNat 8 (((List.range 8).map (fun i => b.getLsbD i)).foldr (fun x n => x.toNat + 2 * n) 0) = b := by
  revert b
  decide +kernel

theorem blocks_one {α : Type} (m : List α) : Spec.blocks 1 m = m.map (fun b => [b]) := by
  induction m with
  | nil => rw [blocks_lt (by simp)]; rfl
  | cons b m ih => rw [blocks_cons (by decide) (by simp), List.map_cons, ← ih]; rfl

theorem bytesOfBits_bitsOf (m : List Byte) : Spec.bytesOfBits (Spec.Keccak.bitsOf m) = m := by
  have h := blocks_bits (R := 1) (by decide) m
  have h : Spec.blocks 8 (Spec.Keccak.bitsOf m) = _ := h
  rw [Spec.bytesOfBits, h, blocks_one, List.map_map, List.map_map]
  conv_rhs => rw [← List.map_id m]
  apply List.map_congr_left
  intro b _
  have := foldr_bits b
  simpa [Spec.Keccak.bitsOf] using this

/-! ### The digest -/

theorem md5_chain (iv : Md5H) (p : List Byte) : md5View 0 (Spec.iterate Model.md5Compress iv (Spec.blocks 64 p)) =
    Spec.iterate Spec.md5Compress (md5View 0 iv) (Spec.blocks 64 p) :=
  iterate_map (φ := md5View 0) (fun s b hb => md5Compress_eq s b hb) _ _ (mem_blocks_length _)

theorem sha1_chain (iv : Sha1H) (p : List Byte) : sha1φ (Spec.iterate Model.sha1Compress iv (Spec.blocks 64 p)) =
    Spec.iterate Spec.sha1Compress (sha1φ iv) (Spec.blocks 64 p) :=
  iterate_map (φ := sha1φ) (fun s b hb => sha1Compress_eq s b hb) _ _ (mem_blocks_length _)

theorem sha256_chain (iv : Sha2H 32) (p : List Byte) : sha2φ32 (Spec.iterate sha256Compress iv (Spec.blocks 64 p)) =
    Spec.iterate Spec.family32.compress (sha2φ32 iv) (Spec.blocks 64 p) :=
  iterate_map (φ := sha2φ32) (fun s b hb => sha256Compress_eq s b hb) _ _ (mem_blocks_length _)

theorem sha512_chain (iv : Sha2H 64) (p : List Byte) : sha2φ64 (Spec.iterate sha512Compress iv (Spec.blocks 128 p)) =
    Spec.iterate Spec.family64.compress (sha2φ64 iv) (Spec.blocks 128 p) :=
  iterate_map (φ := sha2φ64) (fun s b hb => sha512Compress_eq s b hb) _ _ (mem_blocks_length _)

theorem md5_data {s : BlockState md5} {m : List Byte} (h : Absorbed s m) : s.data = Spec.md5 m := by
  refine (data_eq (by decide) h (Or.inl (by decide))).trans ?_
  refine (md5Out_eq _).trans ?_
  have := md5_chain md5.init (Spec.pad 64 8 (Spec.leBytes 8) m)
  exact congrArg (fun r : Spec.Md5Regs => [r.A, r.B, r.C, r.D].flatMap (fun x => Spec.leBytes 4 x.toNat)) this

theorem sha1_data {s : BlockState sha1} {m : List Byte} (h : Absorbed s m) : s.data = Spec.sha1 m := by
  refine (data_eq (by decide) h (Or.inl (by decide))).trans ?_
  refine (sha1Out_eq _).trans ?_
  have := sha1_chain sha1.init (Spec.pad 64 8 (Spec.beBytes 8) m)
  exact congrArg (fun H : Spec.Sha1Vars => [H.a, H.b, H.c, H.d, H.e].flatMap (fun x => Spec.beBytes 4 x.toNat)) this

theorem sha256_bytes (iv : Sha2H 32) (m : List Byte) :
    sha256Out (Spec.iterate sha256Compress iv (Spec.blocks 64 (Spec.pad 64 8 (Spec.beBytes 8) m))) =
      Spec.family32.hash (sha2φ32 iv) m := by
  rw [sha256Out_eq, sha256_chain]; rfl

theorem sha512_bytes (iv : Sha2H 64) (m : List Byte) :
    sha512Out (Spec.iterate sha512Compress iv (Spec.blocks 128 (Spec.pad 128 16 (Spec.beBytes 16) m))) =
      Spec.family64.hash (sha2φ64 iv) m := by
  rw [sha512Out_eq, sha512_chain]; rfl

theorem sha256_data {s : BlockState sha256} {m : List Byte} (h : Absorbed s m) : s.data = Spec.sha256 m :=
  ((data_eq (by decide) h (Or.inl (by decide))).trans (sha256_bytes sha256.init m)).trans
    (congrArg (fun iv => Spec.family32.hash iv m) sha256_iv)

theorem sha224_data {s : BlockState sha224} {m : List Byte} (h : Absorbed s m) : s.data = Spec.sha224 m :=
  ((data_eq (by decide) h (Or.inl (by decide))).trans (congrArg (List.take 28) (sha256_bytes sha224.init m))).trans
    (congrArg (fun iv => (Spec.family32.hash iv m).take 28) sha224_iv)

theorem sha512_data {s : BlockState sha512} {m : List Byte} (h : Absorbed s m) (hm : m.length < 2 ^ 61) : s.data = Spec.sha512 m :=
  ((data_eq (by decide) h (Or.inr hm)).trans (sha512_bytes sha512.init m)).trans
    (congrArg (fun iv => Spec.family64.hash iv m) sha512_iv)

theorem sha384_data {s : BlockState sha384} {m : List Byte} (h : Absorbed s m) (hm : m.length < 2 ^ 61) : s.data = Spec.sha384 m :=
  ((data_eq (by decide) h (Or.inr hm)).trans (congrArg (List.take 48) (sha512_bytes sha384.init m))).trans
    (congrArg (fun iv => (Spec.family64.hash iv m).take 48) sha384_iv)

theorem crc_data (m : List Byte) : crcData (crcAdd crcNew m) = Spec.crc32 m := by
  rw [crcData_eq, crcAdd_eq]; rfl

/-- A digest read returns the standard digest of the absorbed bytes. SHA-384/512 encode the length in 16 bytes but the code only has a
64-bit bit counter, hence the bound 2^61; SHA-3 needs the byte counter not to wrap. -/
theorem hdata_spec {c : HashClass} {s : HState c} {m : List Byte} (h : HAbs c s m)
    (h61 : c = .sha2_384 ∨ c = .sha2_512 → m.length < 2 ^ 61) (h64 : sha3Size c ≠ 0 → m.length < 2 ^ 64) :
    hdata c s = Spec.digest c m := by
  cases c
  case md5 => exact md5_data h
  case sha1 => exact sha1_data h
  case sha2_224 => exact sha224_data h
  case sha2_256 => exact sha256_data h
  case sha2_384 => exact sha384_data h (h61 (by simp))
  case sha2_512 => exact sha512_data h (h61 (by simp))
  case sha3_224 =>
    have := data3_eq (size := 224) (by decide) (by decide) (by decide) (by decide) (by decide) (by decide) h (h64 (by decide))
    rw [show Spec.digest .sha3_224 m = Spec.bytesOfBits (Spec.Keccak.sha3Bits 224 m) from rfl, ← this, bytesOfBits_bitsOf]; rfl
  case sha3_256 =>
    have := data3_eq (size := 256) (by decide) (by decide) (by decide) (by decide) (by decide) (by decide) h (h64 (by decide))
    rw [show Spec.digest .sha3_256 m = Spec.bytesOfBits (Spec.Keccak.sha3Bits 256 m) from rfl, ← this, bytesOfBits_bitsOf]; rfl
  case sha3_384 =>
    have := data3_eq (size := 384) (by decide) (by decide) (by decide) (by decide) (by decide) (by decide) h (h64 (by decide))
    rw [show Spec.digest .sha3_384 m = Spec.bytesOfBits (Spec.Keccak.sha3Bits 384 m) from rfl, ← this, bytesOfBits_bitsOf]; rfl
  case sha3_512 =>
    have := data3_eq (size := 512) (by decide) (by decide) (by decide) (by decide) (by decide) (by decide) h (h64 (by decide))
    rw [show Spec.digest .sha3_512 m = Spec.bytesOfBits (Spec.Keccak.sha3Bits 512 m) from rfl, ← this, bytesOfBits_bitsOf]; rfl
  case crc32 =>
    have h : s = _ := h
    rw [h]; exact crc_data m

/-- The digest read only depends on the absorbed bytes, without any bound for the block hashes. -/
theorem hdata_unique {c : HashClass} {s s' : HState c} {m : List Byte} (h : HAbs c s m) (h' : HAbs c s' m)
    (h64 : sha3Size c ≠ 0 → m.length < 2 ^ 64) : hdata c s = hdata c s' := by
  cases c
  case sha2_384 => exact (data_eq' (A := sha384) (by decide) h).trans (data_eq' (A := sha384) (by decide) h').symm
  case sha2_512 => exact (data_eq' (A := sha512) (by decide) h).trans (data_eq' (A := sha512) (by decide) h').symm
  all_goals exact (hdata_spec h (by simp) h64).trans (hdata_spec h' (by simp) h64).symm

end Verif.Proof
