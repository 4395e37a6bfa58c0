import Verif.Proof.Hash

/-! Properties C01 - C11: hash classes. -/

namespace Verif.Props
open Verif.Model Verif.Proof

/-! ### C01 -/

/-- C01. Any sequence of `add` calls gives the digest of the concatenation added at once. For the block hashes and CRC there is no bound
on the length at all; SHA-3 (whose rate does not divide 2^64) needs fewer than 2^64 bytes. -/
theorem C01_chunking_independent (c : HashClass) (junk : List Byte) (hj : junk.length = bufSize c) (ds : List (List Byte))
    (hlen : sha3Size c ≠ 0 → ds.flatten.length < 2 ^ 64) :
    hdata c (ds.foldl (hadd c) (hnew c junk)) = hdata c (hadd c (hnew c junk) ds.flatten) := by
  have h0 := habs_new c junk hj
  have h1 := habs_foldl ds h0 (by simpa using hlen)
  have h2 := habs_add h0 ds.flatten (by simp)
  exact hdata_unique h1 h2 (by simpa using hlen)

/-- A case that meets the hypotheses of `C01_chunking_independent`. -/
example := C01_chunking_independent .sha3_256 (List.replicate (bufSize .sha3_256) 7#8) List.length_replicate [[1#8], [], [2#8, 3#8]] (fun _ => by decide)

/-- C01, two chunkings of the same message, each with its own uninitialised memory. -/
theorem C01_two_chunkings (c : HashClass) (junk junk' : List Byte) (hj : junk.length = bufSize c) (hj' : junk'.length = bufSize c)
    (ds ds' : List (List Byte)) (h : ds.flatten = ds'.flatten) (hlen : sha3Size c ≠ 0 → ds.flatten.length < 2 ^ 64) :
    hdata c (ds.foldl (hadd c) (hnew c junk)) = hdata c (ds'.foldl (hadd c) (hnew c junk')) := by
  have h1 := habs_foldl ds (habs_new c junk hj) (by simpa using hlen)
  have h2 := habs_foldl ds' (habs_new c junk' hj') (by simpa [← h] using hlen)
  rw [← h] at h2
  exact hdata_unique h1 h2 (by simpa using hlen)

/-- the hypotheses of C01 can be met: three chunks of SHA3-256, one empty, one longer than the rate -/
example : sha3Size .sha3_256 ≠ 0 ∧ ([[1#8], [], List.replicate 200 2#8] : List (List Byte)).flatten.length < 2 ^ 64 ∧
    ([] : List Byte).length = bufSize .sha3_256 := by decide +kernel
example : ([[1#8], [2#8, 3#8], []] : List (List Byte)).flatten = [[1#8, 2#8], [3#8]].flatten ∧
    (List.replicate 64 0xcd#8).length = bufSize .sha2_256 := by decide +kernel

/-! ### C02 -/

/-- What the reads of a history must return: the standard digest of the bytes added before the read. -/
noncomputable def expectedReads (c : HashClass) : List Byte → List HOp → List (List Byte)
  | _, [] => []
  | m, .add d :: ops => expectedReads c (m ++ d) ops
  | m, .read :: ops => Spec.digest c m :: expectedReads c m ops

/-- All bytes added in a history. -/
def addedBytes : List HOp → List Byte
  | [] => []
  | .add d :: ops => d ++ addedBytes ops
  | .read :: ops => addedBytes ops

/-- C02. In every history of adds and reads, every read returns the digest of the bytes added before it. -/
theorem C02_reads_do_not_disturb (c : HashClass) (junk : List Byte) (hj : junk.length = bufSize c) (ops : List HOp)
    (hlen : (addedBytes ops).length < 2 ^ 61) :
    hrun c (hnew c junk) ops = expectedReads c [] ops := by
  have main : ∀ (ops : List HOp) (s : HState c) (m : List Byte), HAbs c s m → (m ++ addedBytes ops).length < 2 ^ 61 →
      hrun c s ops = expectedReads c m ops := by
    intro ops
    induction ops with
    | nil => intro s m _ _; rfl
    | cons op ops ih =>
      intro s m h hl
      cases op with
      | add d =>
        rw [addedBytes, ← List.append_assoc] at hl
        rw [hrun, expectedReads]
        refine ih _ _ (habs_add h d (fun _ => ?_)) hl
        simp only [List.length_append] at hl
        omega
      | read =>
        rw [addedBytes] at hl
        rw [hrun, expectedReads, ih s m h hl]
        simp only [List.length_append] at hl
        rw [hdata_spec h (fun _ => by omega) (fun _ => by omega)]
  exact main ops _ _ (habs_new c junk hj) (by simpa using hlen)

/-- A case that meets the hypotheses of `C02_reads_do_not_disturb`. -/
example := C02_reads_do_not_disturb .sha2_256 (List.replicate 64 7#8) rfl [.add [1#8], .read, .add [2#8], .read] (by decide)

/-- C02, second form, no length bound for the block hashes: inserting reads anywhere does not change a later read. -/
theorem C02_read_then_continue (c : HashClass) (junk : List Byte) (hj : junk.length = bufSize c) (a b : List Byte)
    (hlen : sha3Size c ≠ 0 → (a ++ b).length < 2 ^ 64) :
    hrun c (hnew c junk) [.add a, .read, .read, .add b, .read] =
      [hdigest c junk a, hdigest c junk a, hdigest c junk (a ++ b)] := by
  have h := habs_new c junk hj
  have e : hdata c (hadd c (hadd c (hnew c junk) a) b) = hdigest c junk (a ++ b) := by
    have h1 := habs_add (habs_add h a (by simp)) b (fun h0 => by have := hlen h0; simp at this ⊢; omega)
    have h2 := habs_add h (a ++ b) (by simp)
    exact hdata_unique h1 h2 (by simpa using hlen)
  simp only [hrun, e]
  rfl

example : (addedBytes [.add [1#8, 2#8], .read, .add [3#8], .read]).length < 2 ^ 61 ∧
    (List.replicate 128 0x5a#8).length = bufSize .sha2_384 := by decide +kernel

/-! ### C03 -/

/-- C03. The digest does not depend on the initial content of the block buffer. -/
theorem C03_uninitialised_buffer_irrelevant (c : HashClass) (junk junk' : List Byte) (hj : junk.length = bufSize c)
    (hj' : junk'.length = bufSize c) (ds : List (List Byte)) (hlen : sha3Size c ≠ 0 → ds.flatten.length < 2 ^ 64) :
    hdata c (ds.foldl (hadd c) (hnew c junk)) = hdata c (ds.foldl (hadd c) (hnew c junk')) :=
  C01_two_chunkings c junk junk' hj hj' ds ds rfl hlen

example : (List.replicate 64 0#8).length = bufSize .md5 ∧ (List.replicate 64 0xff#8).length = bufSize .md5 ∧
    (List.replicate 64 0#8) ≠ List.replicate 64 0xff#8 := by decide +kernel

/-! ### C04 - C08 -/

/-- C04. MD5 is RFC 1321, for every message (the 64-bit length field of RFC 1321 is defined modulo 2^64, as is the code's). -/
theorem C04_md5_rfc1321 (junk : List Byte) (hj : junk.length = 64) (m : List Byte) : hdigest .md5 junk m = Spec.md5 m :=
  hdata_spec (habs_add (habs_new .md5 junk hj) m (by simp)) (by simp) (by simp [sha3Size])

/-- A case that meets the hypotheses of `C04_md5_rfc1321`. -/
example := C04_md5_rfc1321 (List.replicate 64 7#8) rfl [0x61#8]

/-- C05. SHA-1 is FIPS 180-4. -/
theorem C05_sha1_fips180 (junk : List Byte) (hj : junk.length = 64) (m : List Byte) : hdigest .sha1 junk m = Spec.sha1 m :=
  hdata_spec (habs_add (habs_new .sha1 junk hj) m (by simp)) (by simp) (by simp [sha3Size])

/-- A case that meets the hypotheses of `C05_sha1_fips180`. -/
example := C05_sha1_fips180 (List.replicate 64 7#8) rfl [0x61#8]

/-- C06. SHA-256 is FIPS 180-4. -/
theorem C06_sha256_fips180 (junk : List Byte) (hj : junk.length = 64) (m : List Byte) : hdigest .sha2_256 junk m = Spec.sha256 m :=
  hdata_spec (habs_add (habs_new .sha2_256 junk hj) m (by simp)) (by simp) (by simp [sha3Size])

/-- A case that meets the hypotheses of `C06_sha256_fips180`. -/
example := C06_sha256_fips180 (List.replicate 64 7#8) rfl [0x61#8]

/-- C06. SHA-224 is FIPS 180-4. -/
theorem C06_sha224_fips180 (junk : List Byte) (hj : junk.length = 64) (m : List Byte) : hdigest .sha2_224 junk m = Spec.sha224 m :=
  hdata_spec (habs_add (habs_new .sha2_224 junk hj) m (by simp)) (by simp) (by simp [sha3Size])

/-- A case that meets the hypotheses of `C06_sha224_fips180`. -/
example := C06_sha224_fips180 (List.replicate 64 7#8) rfl [0x61#8]

/-- C07. SHA-512 is FIPS 180-4 for messages below 2^61 bytes. -/
theorem C07_sha512_fips180 (junk : List Byte) (hj : junk.length = 128) (m : List Byte) (hm : m.length < 2 ^ 61) :
    hdigest .sha2_512 junk m = Spec.sha512 m :=
  hdata_spec (habs_add (habs_new .sha2_512 junk hj) m (by simp)) (by simpa using hm) (by simp [sha3Size])

/-- A case that meets the hypotheses of `C07_sha512_fips180`. -/
example := C07_sha512_fips180 (List.replicate 128 7#8) rfl [0x61#8] (by decide)

/-- C07. SHA-384 is FIPS 180-4 for messages below 2^61 bytes. -/
theorem C07_sha384_fips180 (junk : List Byte) (hj : junk.length = 128) (m : List Byte) (hm : m.length < 2 ^ 61) :
    hdigest .sha2_384 junk m = Spec.sha384 m :=
  hdata_spec (habs_add (habs_new .sha2_384 junk hj) m (by simp)) (by simpa using hm) (by simp [sha3Size])

/-- A case that meets the hypotheses of `C07_sha384_fips180`. -/
example := C07_sha384_fips180 (List.replicate 128 7#8) rfl [0x61#8] (by decide)

/-- C08. SHA-3 is FIPS 202: the bits of the digest are the output of the sponge, for all four sizes. -/
theorem C08_sha3_fips202 (c : HashClass) (hc : c = .sha3_224 ∨ c = .sha3_256 ∨ c = .sha3_384 ∨ c = .sha3_512) (m : List Byte)
    (hm : m.length < 2 ^ 64) :
    Spec.Keccak.bitsOf (hdigest c [] m) = Spec.Keccak.sha3Bits (8 * Spec.digestLength c) m := by
  rcases hc with rfl | rfl | rfl | rfl
  · exact data3_eq (size := 224) (by decide) (by decide) (by decide) (by decide) (by decide) (by decide)
      (absorbed3_add (by decide) (by decide) (absorbed3_new 224 (by decide)) m (by simp)) hm
  · exact data3_eq (size := 256) (by decide) (by decide) (by decide) (by decide) (by decide) (by decide)
      (absorbed3_add (by decide) (by decide) (absorbed3_new 256 (by decide)) m (by simp)) hm
  · exact data3_eq (size := 384) (by decide) (by decide) (by decide) (by decide) (by decide) (by decide)
      (absorbed3_add (by decide) (by decide) (absorbed3_new 384 (by decide)) m (by simp)) hm
  · exact data3_eq (size := 512) (by decide) (by decide) (by decide) (by decide) (by decide) (by decide)
      (absorbed3_add (by decide) (by decide) (absorbed3_new 512 (by decide)) m (by simp)) hm

example : (ascii "abc").length < 2 ^ 61 ∧ (List.replicate 128 7#8).length = 128 := by decide +kernel
example : (ascii "abc").length < 2 ^ 64 := by decide +kernel

/-- All classes at once (C04 - C08 and C12): a digest is the standard digest. -/
theorem digest_correct (c : HashClass) (junk : List Byte) (hj : junk.length = bufSize c) (m : List Byte) (hm : m.length < 2 ^ 61) :
    hdigest c junk m = Spec.digest c m :=
  hdata_spec (habs_add (habs_new c junk hj) m (by simp)) (fun _ => by simpa using hm) (fun _ => by simp; omega)

example : (List.replicate (bufSize .sha2_512) 1#8).length = bufSize .sha2_512 ∧ (ascii "abc").length < 2 ^ 61 := by decide +kernel

/-! ### C09 -/

/-- The full claim of C09: the class selected is the one denoted, and a name that denotes nothing throws. -/
def C09_claim : Prop := ∀ name : List Byte, hashImpl name = (match Spec.denotes name with
  | some c => .ok c
  | none => .error .thrown)

/-- C09 is false: "sha3-256" selects SHA3-512, and so does a name that denotes nothing. -/
theorem C09_false : ¬ C09_claim := by
  intro h
  have := h (ascii "sha3-256")
  exact absurd this (by decide)

/-- The two violations, separately. -/
theorem C09_violations : hashImpl (ascii "sha3-256") = .ok .sha3_512 ∧ Spec.denotes (ascii "sha3-256") = some .sha3_256 ∧
    hashImpl (ascii "no such hash") = .ok .sha3_512 ∧ Spec.denotes (ascii "no such hash") = none := by decide +kernel

/-- C09, what holds: every name that denotes an algorithm other than SHA3-256 selects it, and "sha3-256" and every name that denotes
nothing selects SHA3-512. Missing from the full claim: the throw for unknown names and SHA3-256. -/
theorem C09_partial (name : List Byte) :
    hashImpl name = (match Spec.denotes name with
      | some .sha3_256 => .ok .sha3_512
      | some c => .ok c
      | none => .ok .sha3_512) := by
  by_cases h : name ∈ [ascii "md5", ascii "sha", ascii "sha1", ascii "sha224", ascii "sha256", ascii "sha384", ascii "sha512",
      ascii "sha2-224", ascii "sha2-256", ascii "sha2-384", ascii "sha2-512", ascii "sha3-224", ascii "sha3-256", ascii "sha3-384",
      ascii "sha3-512"]
  · simp only [List.mem_cons, List.not_mem_nil, or_false] at h
    rcases h with h | h | h | h | h | h | h | h | h | h | h | h | h | h | h <;> subst h <;> decide
  · have hd : Spec.denotes name = none := by
      rw [Spec.denotes, List.find?_eq_none.mpr]
      · rfl
      · intro p hp
        simp only [List.mem_cons, List.not_mem_nil, or_false] at hp h
        push Not at h
        simp only [decide_eq_true_eq]
        rintro rfl
        rcases hp with h' | h' | h' | h' | h' | h' | h' | h' | h' | h' | h' | h' | h' | h' | h' <;> subst h' <;> simp at h
    rw [hd, hashImpl]
    simp only [List.mem_cons, List.not_mem_nil, or_false] at h
    push Not at h
    simp [h]

/-- C09, on digests: for every name that denotes an algorithm other than SHA3-256, `Hash(name, m).data()` is its standard digest. -/
theorem C09_digest_partial (name : List Byte) (c : HashClass) (hc : Spec.denotes name = some c) (h3 : c ≠ .sha3_256)
    (junk : List Byte) (hj : junk.length = bufSize c) (m : List Byte) (hm : m.length < 2 ^ 61) :
    hashNamed name junk m = .ok (Spec.digest c m) := by
  have h := C09_partial name
  rw [hc] at h
  have h' : hashImpl name = .ok c := by
    rw [h]; cases c <;> first | rfl | exact absurd rfl h3
  rw [hashNamed, h', ← digest_correct c junk hj m hm]
  rfl

example : Spec.denotes (ascii "sha2-384") = some .sha2_384 ∧ (HashClass.sha2_384 ≠ .sha3_256) ∧
    (List.replicate 128 9#8).length = bufSize .sha2_384 := by decide +kernel

/-! ### C10 -/

theorem decodeHex_toHex : ∀ (l : List Byte), Spec.decodeHex (toHex l) = some l
  | [] => rfl
  | b :: l => by
      have hb : ∀ b : Byte, (Spec.hexDigitValue (hextab.getD (b >>> 4).toNat ' ')) = some (b.toNat / 16) ∧
          (Spec.hexDigitValue (hextab.getD (b &&& 0xF#8).toNat ' ')) = some (b.toNat % 16) := by decide +kernel
      rw [show toHex (b :: l) = hextab.getD (b >>> 4).toNat ' ' :: hextab.getD (b &&& 0xF#8).toNat ' ' :: toHex l from rfl,
        Spec.decodeHex, (hb b).1, (hb b).2, decodeHex_toHex l]
      simp only [Option.bind_eq_bind, Option.bind_some, Nat.div_add_mod]
      rw [BitVec.ofNat_toNat, BitVec.setWidth_eq]
      rfl

theorem toHex_length (l : List Byte) : (toHex l).length = 2 * l.length := by
  induction l with
  | nil => rfl
  | cons b l ih => rw [show toHex (b :: l) = hextab.getD (b >>> 4).toNat ' ' :: hextab.getD (b &&& 0xF#8).toNat ' ' :: toHex l from rfl,
      List.length_cons, List.length_cons, ih, List.length_cons]; omega

theorem hdata_length (c : HashClass) (s : HState c) : (hdata c s).length = hashsize c := by
  cases c
  case md5 => simp [hdata, BlockState.data, md5, md5Out, hashsize]
  case sha1 => simp [hdata, BlockState.data, sha1, sha1Out, hashsize, outBE32]
  case sha2_224 => simp [hdata, BlockState.data, sha224, sha256Out, hashsize, outBE32]
  case sha2_256 => simp [hdata, BlockState.data, sha256, sha256Out, hashsize, outBE32]
  case sha2_384 => simp [hdata, BlockState.data, sha384, sha512Out, hashsize, outBE64]
  case sha2_512 => simp [hdata, BlockState.data, sha512, sha512Out, hashsize, outBE64]
  case sha3_224 => simp [hdata, Sha3State.data, hashsize]
  case sha3_256 => simp [hdata, Sha3State.data, hashsize]
  case sha3_384 => simp [hdata, Sha3State.data, hashsize]
  case sha3_512 => simp [hdata, Sha3State.data, hashsize]
  case crc32 => simp [hdata, crcData, hashsize]

/-- The full claim of C10. -/
def C10_claim : Prop := ∀ (c : HashClass) (s : HState c),
  (hstring c s).length = 2 * hashsize c ∧ Spec.decodeHex (hstring c s) = some (hdata c s)

theorem hstring224_length (s : HState .sha2_224) : (hstring .sha2_224 s).length = 64 := by
  rw [hstring, toHex_length]; simp [BlockState.data, sha256, sha256Out, outBE32]

theorem hstring384_length (s : HState .sha2_384) : (hstring .sha2_384 s).length = 128 := by
  rw [hstring, toHex_length]; simp [BlockState.data, sha512, sha512Out, outBE64]

/-- C10 is false: the string of `SHA2<224>` has 64 characters, that of `SHA2<384>` has 128, whatever was hashed. -/
theorem C10_false : ¬ C10_claim := by
  intro h
  have := (h .sha2_224 (hnew .sha2_224 (List.replicate 64 0#8))).1
  rw [hstring224_length] at this
  exact absurd this (by decide)

/-- the same object seen through a class that differs only in initial value and truncation -/
def recast {A : BlockAlg} (i : A.σ) (o : A.σ → List Byte) (s : BlockState A) : BlockState { A with init := i, out := o } :=
  ⟨s.h, s.chunk, s.msglength⟩

theorem recast_addLoop {A : BlockAlg} (i : A.σ) (o : A.σ → List Byte) : ∀ (n : Nat) (s : BlockState A) (d : List Byte), d.length = n →
    (recast i o s).addLoop d = recast i o (s.addLoop d) := by
  intro n
  induction n using Nat.strong_induction_on with
  | _ n ih =>
    intro s d hd
    have ge : ∀ {A : BlockAlg} (s : BlockState A), A.B ≤ d.length → s.addLoop d = BlockState.addLoop (BlockState.processChunk
        { s with chunk := overwrite s.chunk 0 (d.take A.B) }) (d.drop A.B) := by
      intro A s h; rw [BlockState.addLoop, if_pos h]
    have lt : ∀ {A : BlockAlg} (s : BlockState A), ¬ A.B ≤ d.length → s.addLoop d =
        if d.length ≠ 0 then { s with chunk := overwrite s.chunk 0 d } else s := by
      intro A s h; rw [BlockState.addLoop, if_neg h]
    by_cases h : A.B ≤ d.length
    · rw [ge _ h, ge _ (by exact h)]
      have := A.Bpos
      exact ih (d.drop A.B).length (by simp; omega)
        (BlockState.processChunk { s with chunk := overwrite s.chunk 0 (d.take A.B) }) (d.drop A.B) rfl
    · rw [lt _ h, lt _ (by exact h)]
      split <;> rfl

theorem recast_add {A : BlockAlg} (i : A.σ) (o : A.σ → List Byte) (s : BlockState A) (d : List Byte) :
    (recast i o s).add d = recast i o (s.add d) := by
  rw [BlockState.add, BlockState.add]
  simp only []
  show (if s.msglength.toNat % A.B ≠ 0 then _ else _) = _
  by_cases h : s.msglength.toNat % A.B ≠ 0
  · rw [if_pos h, if_pos h]
    show (if s.msglength.toNat % A.B + min d.length (A.B - s.msglength.toNat % A.B) ≠ A.B then _ else _) = _
    by_cases h2 : s.msglength.toNat % A.B + min d.length (A.B - s.msglength.toNat % A.B) ≠ A.B
    · rw [if_pos h2, if_pos h2]; rfl
    · rw [if_neg h2, if_neg h2]
      let n := min d.length (A.B - s.msglength.toNat % A.B)
      exact recast_addLoop i o _ (BlockState.processChunk ⟨s.h, overwrite s.chunk (s.msglength.toNat % A.B) (d.take n),
        s.msglength + BitVec.ofNat 64 d.length⟩) _ rfl
  · rw [if_neg h, if_neg h]
    exact recast_addLoop i o _ { s with msglength := s.msglength + BitVec.ofNat 64 d.length } _ rfl

theorem recast_data {A : BlockAlg} (i : A.σ) (o : A.σ → List Byte) (s : BlockState A) :
    ∃ h, s.data = A.out h ∧ (recast i o s).data = o h := by
  refine ⟨_, rfl, ?_⟩
  have h1 := recast_add i o s ((0x80#8 :: List.replicate A.B 0#8).take (A.B - (s.msglength + BitVec.ofNat 64 A.L).toNat % A.B))
  have h2 := congrArg (fun t => (BlockState.add t (lenField A s.msglength)).h) h1
  exact congrArg o (h2.trans (congrArg BlockState.h (recast_add i o _ (lenField A s.msglength))))

theorem data224 (s : BlockState sha224) :
    (BlockState.data (A := sha256) ⟨s.h, s.chunk, s.msglength⟩).take 28 = s.data := by
  obtain ⟨h, h1, h2⟩ := recast_data (A := sha256) sha224.init sha224.out ⟨s.h, s.chunk, s.msglength⟩
  rw [h1]
  exact h2.symm

theorem data384 (s : BlockState sha384) :
    (BlockState.data (A := sha512) ⟨s.h, s.chunk, s.msglength⟩).take 48 = s.data := by
  obtain ⟨h, h1, h2⟩ := recast_data (A := sha512) sha384.init sha384.out ⟨s.h, s.chunk, s.msglength⟩
  rw [h1]
  exact h2.symm

/-- C10, what holds: the claim for every class except `SHA2<224>` and `SHA2<384>`; for these two the first `2 * hashsize` characters are
the digest and 8 (32) further characters follow. -/
theorem C10_partial (c : HashClass) (s : HState c) :
    ((c ≠ .sha2_224 ∧ c ≠ .sha2_384) → (hstring c s).length = 2 * hashsize c ∧ Spec.decodeHex (hstring c s) = some (hdata c s)) ∧
    Spec.decodeHex ((hstring c s).take (2 * hashsize c)) = some (hdata c s) := by
  have take : ∀ (l : List Byte) (n : Nat), (toHex l).take (2 * n) = toHex (l.take n) := by
    intro l
    induction l with
    | nil => intro n; simp [toHex]
    | cons b l ih =>
      intro n
      cases n with
      | zero => simp [toHex]
      | succ n =>
        rw [show toHex (b :: l) = hextab.getD (b >>> 4).toNat ' ' :: hextab.getD (b &&& 0xF#8).toNat ' ' :: toHex l from rfl,
          show 2 * (n + 1) = 2 * n + 1 + 1 by omega, List.take_succ_cons, List.take_succ_cons, ih]
        rfl
  have common : hstring c s = toHex (hdata c s) →
      ((c ≠ .sha2_224 ∧ c ≠ .sha2_384) → (hstring c s).length = 2 * hashsize c ∧ Spec.decodeHex (hstring c s) = some (hdata c s)) ∧
      Spec.decodeHex ((hstring c s).take (2 * hashsize c)) = some (hdata c s) := by
    intro h
    refine ⟨fun _ => ⟨?_, ?_⟩, ?_⟩
    · rw [h, toHex_length, hdata_length]
    · rw [h, decodeHex_toHex]
    · rw [h, take, decodeHex_toHex, List.take_of_length_le (by rw [hdata_length])]
  cases c
  case sha2_224 =>
    refine ⟨by simp, ?_⟩
    rw [hstring, take, decodeHex_toHex]
    exact congrArg some (data224 s)
  case sha2_384 =>
    refine ⟨by simp, ?_⟩
    rw [hstring, take, decodeHex_toHex]
    exact congrArg some (data384 s)
  all_goals exact common rfl

example : (HashClass.sha3_384 ≠ .sha2_224 ∧ HashClass.sha3_384 ≠ .sha2_384) := by decide +kernel

/-! ### C11 -/

/-- The full claim of C11. -/
def C11_claim : Prop := ∀ (c : HashClass) (oid : List Nat) (d : List Byte), Spec.hashOid c = some oid → d.length = Spec.digestLength c →
  ∃ p, getAsn1Id c = some p ∧ p ++ d = Spec.digestInfo oid d

/-- The bytes in front of a digest of `k` bytes. -/
def digestInfoPrefix (oid : List Nat) (k : Nat) : List Byte :=
  let alg := Spec.tlv 0x30#8 (Spec.tlv 0x06#8 (Spec.oidContent oid) ++ Spec.tlv 0x05#8 [])
  let oct := 0x04#8 :: Spec.derLength k
  0x30#8 :: (Spec.derLength (alg.length + oct.length + k) ++ alg ++ oct)

theorem digestInfo_eq (oid : List Nat) (d : List Byte) {k : Nat} (hd : d.length = k) :
    Spec.digestInfo oid d = digestInfoPrefix oid k ++ d := by
  subst hd
  simp only [Spec.digestInfo, digestInfoPrefix]
  generalize Spec.tlv 0x30#8 (Spec.tlv 0x06#8 (Spec.oidContent oid) ++ Spec.tlv 0x05#8 []) = alg
  have hl : (alg ++ Spec.tlv 0x04#8 d).length = alg.length + (0x04#8 :: Spec.derLength d.length).length + d.length := by
    simp only [Spec.tlv, List.length_append, List.length_cons]; omega
  rw [Spec.tlv, hl]
  simp [Spec.tlv]

/-- C11 fails for SHA3-224, SHA3-384 and SHA3-512: no digest of the right length gives the DER encoding. -/
theorem C11_violations (c : HashClass) (hc : c = .sha3_224 ∨ c = .sha3_384 ∨ c = .sha3_512) (d : List Byte)
    (hd : d.length = Spec.digestLength c) :
    ∃ oid p, Spec.hashOid c = some oid ∧ getAsn1Id c = some p ∧ p ++ d ≠ Spec.digestInfo oid d := by
  rcases hc with rfl | rfl | rfl
  all_goals
    refine ⟨_, _, rfl, rfl, ?_⟩
    rw [digestInfo_eq _ d hd]
    intro h
    exact absurd (List.append_cancel_right h) (by decide +kernel)

example : (List.replicate 28 0x11#8).length = Spec.digestLength .sha3_224 := by decide +kernel

/-- C11, what holds: the claim for MD5, SHA-1, all SHA-2 classes and SHA3-256. Missing: SHA3-224, SHA3-384 and SHA3-512, see
`C11_violations`. -/
theorem C11_partial (c : HashClass) (hc : c ≠ .sha3_224 ∧ c ≠ .sha3_384 ∧ c ≠ .sha3_512) (oid : List Nat) (d : List Byte)
    (ho : Spec.hashOid c = some oid) (hd : d.length = Spec.digestLength c) :
    ∃ p, getAsn1Id c = some p ∧ p ++ d = Spec.digestInfo oid d := by
  have key : ∀ p, getAsn1Id c = some p → p = digestInfoPrefix oid (Spec.digestLength c) →
      ∃ p, getAsn1Id c = some p ∧ p ++ d = Spec.digestInfo oid d := by
    intro p hp h
    exact ⟨p, hp, by rw [digestInfo_eq _ d hd, h]⟩
  cases c
  case sha3_224 => exact absurd rfl hc.1
  case sha3_384 => exact absurd rfl hc.2.1
  case sha3_512 => exact absurd rfl hc.2.2
  case crc32 => exact absurd ho (by simp [Spec.hashOid])
  all_goals
    simp only [Spec.hashOid, Option.some.injEq] at ho
    subst ho
    exact key _ rfl (by decide +kernel)

example : Spec.hashOid .sha2_256 = some [2, 16, 840, 1, 101, 3, 4, 2, 1] ∧ (List.replicate 32 0x11#8).length = Spec.digestLength .sha2_256 := by
  decide +kernel

theorem C11_false : ¬ C11_claim := by
  intro h
  obtain ⟨oid, p, h1, h2, h3⟩ := C11_violations .sha3_224 (Or.inl rfl) (List.replicate 28 0#8) (by decide)
  obtain ⟨p', h4, h5⟩ := h .sha3_224 oid (List.replicate 28 0#8) h1 (by decide)
  rw [h2] at h4
  cases h4
  exact h3 h5

end Verif.Props
