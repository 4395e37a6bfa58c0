import Verif.Props.LengthExtension
import Verif.Props.KnownCollision

/-! C138: a collision of a hash class is a collision of its `processChunk`. -/

namespace Verif.Props
open Verif.Model Verif.Proof

/-- The chaining value in front of block `i` of the padded message `x`. -/
def chainAt (A : BlockAlg) (x : List Byte) (i : Nat) : A.σ := Spec.iterate A.compress A.init ((Spec.blocks A.B x).take i)

/-- Block `i` of `x` and block `j` of `y` together with the chaining values in front of them are different inputs of `processChunk` with the same result. The
inputs have to be met while hashing `x` and `y`: that some collision exists somewhere follows from counting alone. -/
def CollideAt (A : BlockAlg) (x y : List Byte) (i j : Nat) : Prop :=
  ∃ b b', (Spec.blocks A.B x)[i]? = some b ∧ (Spec.blocks A.B y)[j]? = some b' ∧ b.length = A.B ∧ b'.length = A.B ∧
    (chainAt A x i, b) ≠ (chainAt A y j, b') ∧ A.compress (chainAt A x i) b = A.compress (chainAt A y j) b'

theorem flatten_blocks {α : Type} {B : Nat} (hB : 0 < B) : ∀ (m : List α), B ∣ m.length → (Spec.blocks B m).flatten = m := by
  intro m
  induction hm : m.length using Nat.strong_induction_on generalizing m with
  | _ n ih =>
    intro hd
    by_cases h0 : m.length = 0
    · obtain rfl : m = [] := List.length_eq_zero_iff.mp h0
      rw [blocks_lt (by simpa using hB)]; rfl
    · have hle : B ≤ m.length := Nat.le_of_dvd (by omega) (hm ▸ hd)
      rw [blocks_cons hB hle, List.flatten_cons, ih (m.drop B).length (by simp; omega) (m.drop B) rfl, List.take_append_drop]
      rw [List.length_drop]
      exact Nat.dvd_sub (hm ▸ hd) (dvd_refl _)

/-- Two lists of the same length that a fold takes to the same value are the same, or there is a position where the inputs of the folded function differ and its
results do not. -/
theorem fold_collision {σ β : Type} (f : σ → β → σ) (s : σ) : ∀ (n : Nat) (xs ys : List β), xs.length = n → ys.length = n → xs.foldl f s = ys.foldl f s → xs ≠ ys →
    ∃ (i : Nat) (b b' : β), xs[i]? = some b ∧ ys[i]? = some b' ∧ ((xs.take i).foldl f s, b) ≠ ((ys.take i).foldl f s, b') ∧
      f ((xs.take i).foldl f s) b = f ((ys.take i).foldl f s) b'
  | 0, xs, ys, hx, hy, _, hne => absurd ((List.length_eq_zero_iff.mp hx).trans (List.length_eq_zero_iff.mp hy).symm) hne
  | n + 1, xs, ys, hx, hy, he, hne => by
    obtain ⟨x, b, rfl⟩ : ∃ x b, xs = x ++ [b] := ⟨xs.dropLast, xs.getLast (by rintro rfl; exact nomatch hx), (List.dropLast_append_getLast _).symm⟩
    obtain ⟨y, b', rfl⟩ : ∃ y b', ys = y ++ [b'] := ⟨ys.dropLast, ys.getLast (by rintro rfl; exact nomatch hy), (List.dropLast_append_getLast _).symm⟩
    have lx : x.length = n := by simpa using hx
    have ly : y.length = n := by simpa using hy
    rw [List.foldl_append, List.foldl_append] at he
    have he' : f (x.foldl f s) b = f (y.foldl f s) b' := he
    by_cases hp : ((x.foldl f s, b) : σ × β) = (y.foldl f s, b')
    · obtain ⟨h1, h2⟩ := Prod.mk.inj hp
      have hxy : x ≠ y := fun h => hne (by rw [h, h2])
      obtain ⟨i, c, c', g1, g2, g3, g4⟩ := fold_collision f s n x y lx ly h1 hxy
      have i1 : i < x.length := (List.getElem?_eq_some_iff.mp g1).1
      have i2 : i < y.length := (List.getElem?_eq_some_iff.mp g2).1
      refine ⟨i, c, c', by rw [List.getElem?_append_left i1, g1], by rw [List.getElem?_append_left i2, g2], ?_⟩
      rw [List.take_append_of_le_length (Nat.le_of_lt i1), List.take_append_of_le_length (Nat.le_of_lt i2)]
      exact ⟨g3, g4⟩
    · refine ⟨n, b, b', by rw [← lx]; simp, by rw [← ly]; simp, ?_⟩
      rw [List.take_left' lx, List.take_left' ly]
      exact ⟨hp, he'⟩

variable {A : BlockAlg}

/-- The last block of a padded message ends with the length field. -/
theorem last_block (p f : List Byte) (hf : f.length ≤ A.B) (hf0 : 0 < f.length) (hd : A.B ∣ (p ++ f).length) :
    ∃ bs q, Spec.blocks A.B (p ++ f) = bs ++ [q ++ f] ∧ (q ++ f).length = A.B := by
  have hB := A.Bpos
  have hle : A.B ≤ (p ++ f).length := Nat.le_of_dvd (by rw [List.length_append]; omega) hd
  rw [List.length_append] at hle hd
  let k := p.length + f.length - A.B
  have hk : A.B ∣ (p.take k).length := by
    rw [List.length_take, Nat.min_eq_left (by omega)]
    exact Nat.dvd_sub hd (dvd_refl _)
  have hl : (p.drop k ++ f).length = A.B := by rw [List.length_append, List.length_drop]; omega
  refine ⟨Spec.blocks A.B (p.take k), p.drop k, ?_, hl⟩
  conv_lhs => rw [← List.take_append_drop k p, List.append_assoc, blocks_append hB _ _ hk, blocks_single hB hl]

/-- The reduction for one class. `F n` is the length field of a message of `n` bytes. -/
theorem md_reduction (F : Nat → List Byte) (L : Nat) (hL : 0 < L) (hLB : L ≤ A.B) (hF : ∀ n, (F n).length = L) (m m' p p' : List Byte)
    (hinj : F m.length = F m'.length → m.length = m'.length)
    (hpp : m.length = m'.length → p.length = p'.length) (hne : m ≠ m')
    (hd : A.B ∣ (m ++ p ++ F m.length).length) (hd' : A.B ∣ (m' ++ p' ++ F m'.length).length)
    (he : Spec.iterate A.compress A.init (Spec.blocks A.B (m ++ p ++ F m.length)) = Spec.iterate A.compress A.init (Spec.blocks A.B (m' ++ p' ++ F m'.length))) :
    ∃ i j, CollideAt A (m ++ p ++ F m.length) (m' ++ p' ++ F m'.length) i j := by
  have hB := A.Bpos
  have ml : ∀ {x : List Byte} {i : Nat} {b : List Byte}, (Spec.blocks A.B x)[i]? = some b → b.length = A.B :=
    fun h => mem_blocks_length _ _ (List.mem_of_getElem? h)
  by_cases hlen : m.length = m'.length
  · have hnb : (m ++ p ++ F m.length) ≠ (m' ++ p' ++ F m'.length) := by
      intro h
      rw [List.append_assoc, List.append_assoc] at h
      exact hne (List.append_inj h hlen).1
    have hbs : Spec.blocks A.B (m ++ p ++ F m.length) ≠ Spec.blocks A.B (m' ++ p' ++ F m'.length) := by
      intro h
      apply hnb
      rw [← flatten_blocks hB _ hd, ← flatten_blocks hB _ hd', h]
    have ll : (Spec.blocks A.B (m ++ p ++ F m.length)).length = (Spec.blocks A.B (m' ++ p' ++ F m'.length)).length := by
      have key : ∀ x : List Byte, A.B ∣ x.length → (Spec.blocks A.B x).length * A.B = x.length := by
        intro x hx
        conv_rhs => rw [← flatten_blocks hB x hx]
        rw [List.length_flatten, List.map_congr_left (g := fun _ => A.B) (fun b hb => mem_blocks_length _ _ hb), List.map_const', List.sum_replicate, smul_eq_mul]
      have e1 := key _ hd
      have e2 := key _ hd'
      have e3 : (m ++ p ++ F m.length).length = (m' ++ p' ++ F m'.length).length := by
        simp only [List.length_append, hF, hlen, hpp hlen]
      exact Nat.eq_of_mul_eq_mul_right hB (by rw [e1, e2, e3])
    obtain ⟨i, b, b', h1, h2, h3, h4⟩ := fold_collision A.compress A.init _ _ _ ll rfl he hbs
    exact ⟨i, i, b, b', h1, h2, ml h1, ml h2, h3, h4⟩
  · obtain ⟨bs, q, h1, h2⟩ := last_block (A := A) (m ++ p) (F m.length) (by rw [hF]; exact hLB) (by rw [hF]; exact hL) hd
    obtain ⟨bs', q', h1', h2'⟩ := last_block (A := A) (m' ++ p') (F m'.length) (by rw [hF]; exact hLB) (by rw [hF]; exact hL) hd'
    have hq : q ++ F m.length ≠ q' ++ F m'.length := by
      intro h
      exact hlen (hinj (List.append_inj' h (by rw [hF, hF])).2)
    refine ⟨bs.length, bs'.length, q ++ F m.length, q' ++ F m'.length, by rw [h1]; simp, by rw [h1']; simp, h2, h2', fun h => hq (Prod.mk.inj h).2, ?_⟩
    rw [chainAt, chainAt]
    rw [h1, h1'] at he ⊢
    rw [List.take_left' rfl, List.take_left' rfl]
    simpa [Spec.iterate, List.foldl_append] using he

theorem leBytes_inj (k a b : Nat) (ha : a < 256 ^ k) (hb : b < 256 ^ k) (h : Spec.leBytes k a = Spec.leBytes k b) : a = b := by
  have key : ∀ n : Nat, Spec.leBytes k n = (Spec.beBytes k n).reverse := by
    intro n
    rw [Spec.beBytes, Spec.leBytes, reverse_map_range]
    apply List.map_congr_left
    intro i hi
    rw [show k - 1 - (k - 1 - i) = i by have := List.mem_range.mp hi; omega]
  rw [key, key, List.reverse_inj] at h
  have := congrArg Spec.beOctets h
  rwa [beOctets_beBytes, beOctets_beBytes, Nat.mod_eq_of_lt ha, Nat.mod_eq_of_lt hb] at this

theorem beBytes_inj (k a b : Nat) (ha : a < 256 ^ k) (hb : b < 256 ^ k) (h : Spec.beBytes k a = Spec.beBytes k b) : a = b := by
  have := congrArg Spec.beOctets h
  rwa [beOctets_beBytes, beOctets_beBytes, Nat.mod_eq_of_lt ha, Nat.mod_eq_of_lt hb] at this

/-- The message as the block function sees it. -/
def withGlue (c : HashClass) (m : List Byte) : List Byte := m ++ glue c m.length

/-- The final state of an object that has hashed `m`. -/
def finalState (A : BlockAlg) (x : List Byte) : A.σ := Spec.iterate A.compress A.init (Spec.blocks A.B x)

/-- For all six classes: two messages with the same final state. -/
theorem state_collision (m m' : List Byte) (hm : m.length < 2 ^ 61) (hm' : m'.length < 2 ^ 61) (hne : m ≠ m') :
    (finalState md5 (withGlue .md5 m) = finalState md5 (withGlue .md5 m') → ∃ i j, CollideAt md5 (withGlue .md5 m) (withGlue .md5 m') i j) ∧
    (finalState sha1 (withGlue .sha1 m) = finalState sha1 (withGlue .sha1 m') → ∃ i j, CollideAt sha1 (withGlue .sha1 m) (withGlue .sha1 m') i j) ∧
    (finalState sha224 (withGlue .sha2_224 m) = finalState sha224 (withGlue .sha2_224 m') → ∃ i j, CollideAt sha224 (withGlue .sha2_224 m) (withGlue .sha2_224 m') i j) ∧
    (finalState sha256 (withGlue .sha2_256 m) = finalState sha256 (withGlue .sha2_256 m') → ∃ i j, CollideAt sha256 (withGlue .sha2_256 m) (withGlue .sha2_256 m') i j) ∧
    (finalState sha384 (withGlue .sha2_384 m) = finalState sha384 (withGlue .sha2_384 m') → ∃ i j, CollideAt sha384 (withGlue .sha2_384 m) (withGlue .sha2_384 m') i j) ∧
    (finalState sha512 (withGlue .sha2_512 m) = finalState sha512 (withGlue .sha2_512 m') → ∃ i j, CollideAt sha512 (withGlue .sha2_512 m) (withGlue .sha2_512 m') i j) := by
  have g := glue_dvd m.length
  have g' := glue_dvd m'.length
  have lt8 : 8 * m.length < 256 ^ 8 := by norm_num at hm ⊢; omega
  have lt8' : 8 * m'.length < 256 ^ 8 := by norm_num at hm' ⊢; omega
  have lt16 : 8 * m.length < 256 ^ 16 := lt8.trans (by norm_num)
  have lt16' : 8 * m'.length < 256 ^ 16 := lt8'.trans (by norm_num)
  have small : ∀ c, (c = .md5 ∨ c = .sha1 ∨ c = .sha2_224 ∨ c = .sha2_256) → ∀ n, glue c n = ([0x80#8] ++ List.replicate ((64 - (n + 9) % 64) % 64) 0#8) ++
      (if c = .md5 then Spec.leBytes 8 (8 * n) else Spec.beBytes 8 (8 * n)) := by
    rintro c (rfl | rfl | rfl | rfl) n <;> rfl
  have large : ∀ c, (c = .sha2_384 ∨ c = .sha2_512) → ∀ n, glue c n = ([0x80#8] ++ List.replicate ((128 - (n + 17) % 128) % 128) 0#8) ++ Spec.beBytes 16 (8 * n) := by
    rintro c (rfl | rfl) n <;> rfl
  have i8 : Spec.beBytes 8 (8 * m.length) = Spec.beBytes 8 (8 * m'.length) → m.length = m'.length := fun h => by
    have := beBytes_inj 8 _ _ lt8 lt8' h; omega
  have l8 : Spec.leBytes 8 (8 * m.length) = Spec.leBytes 8 (8 * m'.length) → m.length = m'.length := fun h => by
    have := leBytes_inj 8 _ _ lt8 lt8' h; omega
  have i16 : Spec.beBytes 16 (8 * m.length) = Spec.beBytes 16 (8 * m'.length) → m.length = m'.length := fun h => by
    have := beBytes_inj 16 _ _ lt16 lt16' h; omega
  have e : ∀ c n (x p f : List Byte), glue c n = p ++ f → (x ++ glue c n).length = (x ++ p ++ f).length := fun c n x p f h => by rw [h, List.append_assoc]
  have lb : ∀ k n, (Spec.beBytes k n).length = k := fun k n => by simp [Spec.beBytes]
  have ll : ∀ k n, (Spec.leBytes k n).length = k := fun k n => by simp [Spec.leBytes]
  have use64 : ∀ (A : BlockAlg) (c : HashClass) (F : Nat → List Byte), A.B = 64 → (∀ n, (F n).length = 8) → (F m.length = F m'.length → m.length = m'.length) →
      (∀ n, glue c n = ([0x80#8] ++ List.replicate ((64 - (n + 9) % 64) % 64) 0#8) ++ F n) →
      64 ∣ m.length + (glue c m.length).length → 64 ∣ m'.length + (glue c m'.length).length →
      finalState A (withGlue c m) = finalState A (withGlue c m') → ∃ i j, CollideAt A (withGlue c m) (withGlue c m') i j := by
    intro A c F hA hF hi hg d1 d2 h
    unfold withGlue finalState at *
    rw [hg, hg, ← List.append_assoc m, ← List.append_assoc m'] at h ⊢
    refine md_reduction (A := A) F 8 (by decide) (by omega) hF m m' _ _ hi (fun hh => by rw [hh]) hne ?_ ?_ h
    · rw [List.append_assoc m, ← hg, List.length_append, hA]; exact d1
    · rw [List.append_assoc m', ← hg, List.length_append, hA]; exact d2
  have use128 : ∀ (A : BlockAlg) (c : HashClass) (F : Nat → List Byte), A.B = 128 → (∀ n, (F n).length = 16) → (F m.length = F m'.length → m.length = m'.length) →
      (∀ n, glue c n = ([0x80#8] ++ List.replicate ((128 - (n + 17) % 128) % 128) 0#8) ++ F n) →
      128 ∣ m.length + (glue c m.length).length → 128 ∣ m'.length + (glue c m'.length).length →
      finalState A (withGlue c m) = finalState A (withGlue c m') → ∃ i j, CollideAt A (withGlue c m) (withGlue c m') i j := by
    intro A c F hA hF hi hg d1 d2 h
    unfold withGlue finalState at *
    rw [hg, hg, ← List.append_assoc m, ← List.append_assoc m'] at h ⊢
    refine md_reduction (A := A) F 16 (by decide) (by omega) hF m m' _ _ hi (fun hh => by rw [hh]) hne ?_ ?_ h
    · rw [List.append_assoc m, ← hg, List.length_append, hA]; exact d1
    · rw [List.append_assoc m', ← hg, List.length_append, hA]; exact d2
  exact ⟨use64 md5 .md5 (fun n => Spec.leBytes 8 (8 * n)) rfl (fun n => ll 8 _) l8 (small .md5 (by simp)) g.1 g'.1,
    use64 sha1 .sha1 (fun n => Spec.beBytes 8 (8 * n)) rfl (fun n => lb 8 _) i8 (small .sha1 (by simp)) g.2.1 g'.2.1,
    use64 sha224 .sha2_224 (fun n => Spec.beBytes 8 (8 * n)) rfl (fun n => lb 8 _) i8 (small .sha2_224 (by simp)) g.2.2.1 g'.2.2.1,
    use64 sha256 .sha2_256 (fun n => Spec.beBytes 8 (8 * n)) rfl (fun n => lb 8 _) i8 (small .sha2_256 (by simp)) g.2.2.2.1 g'.2.2.2.1,
    use128 sha384 .sha2_384 (fun n => Spec.beBytes 16 (8 * n)) rfl (fun n => lb 16 _) i16 (large .sha2_384 (by simp)) g.2.2.2.2.1 g'.2.2.2.2.1,
    use128 sha512 .sha2_512 (fun n => Spec.beBytes 16 (8 * n)) rfl (fun n => lb 16 _) i16 (large .sha2_512 (by simp)) g.2.2.2.2.2 g'.2.2.2.2.2⟩

/-- What an object of each class answers, from its final state. -/
theorem answer (m : List Byte) (hm : m.length < 2 ^ 61) :
    hashOf .md5 m = md5Out (finalState md5 (withGlue .md5 m)) ∧ hashOf .sha1 m = sha1Out (finalState sha1 (withGlue .sha1 m)) ∧
    hashOf .sha2_224 m = sha224.out (finalState sha224 (withGlue .sha2_224 m)) ∧ hashOf .sha2_256 m = sha256Out (finalState sha256 (withGlue .sha2_256 m)) ∧
    hashOf .sha2_384 m = sha384.out (finalState sha384 (withGlue .sha2_384 m)) ∧ hashOf .sha2_512 m = sha512Out (finalState sha512 (withGlue .sha2_512 m)) :=
  ⟨final_state (A := md5) (by decide) m _ _ List.length_replicate (Or.inl (by decide)) (by simp [Spec.pad, glue, fieldOf, md5]),
   final_state (A := sha1) (by decide) m _ _ List.length_replicate (Or.inl (by decide)) (by simp [Spec.pad, glue, fieldOf, sha1]),
   final_state (A := sha224) (by decide) m _ _ List.length_replicate (Or.inl (by decide)) (by simp [Spec.pad, glue, fieldOf, sha224, sha256]),
   final_state (A := sha256) (by decide) m _ _ List.length_replicate (Or.inl (by decide)) (by simp [Spec.pad, glue, fieldOf, sha256]),
   final_state (A := sha384) (by decide) m _ _ List.length_replicate (Or.inr hm) (by simp [Spec.pad, glue, fieldOf, sha384, sha512]),
   final_state (A := sha512) (by decide) m _ _ List.length_replicate (Or.inr hm) (by simp [Spec.pad, glue, fieldOf, sha512])⟩

/-- C138: two different messages of less than 2^61 bytes with the same MD5, SHA-1, SHA-256 or SHA-512 result of the library lead to a block and a chaining value of
each computation which `processChunk` takes to the same value although they are different. -/
theorem C138_collision (m m' : List Byte) (hm : m.length < 2 ^ 61) (hm' : m'.length < 2 ^ 61) (hne : m ≠ m') :
    (hashOf .md5 m = hashOf .md5 m' → ∃ i j, CollideAt md5 (withGlue .md5 m) (withGlue .md5 m') i j) ∧
    (hashOf .sha1 m = hashOf .sha1 m' → ∃ i j, CollideAt sha1 (withGlue .sha1 m) (withGlue .sha1 m') i j) ∧
    (hashOf .sha2_256 m = hashOf .sha2_256 m' → ∃ i j, CollideAt sha256 (withGlue .sha2_256 m) (withGlue .sha2_256 m') i j) ∧
    (hashOf .sha2_512 m = hashOf .sha2_512 m' → ∃ i j, CollideAt sha512 (withGlue .sha2_512 m) (withGlue .sha2_512 m') i j) := by
  obtain ⟨s1, s2, _, s4, _, s6⟩ := state_collision m m' hm hm' hne
  obtain ⟨a1, a2, _, a4, _, a6⟩ := answer m hm
  obtain ⟨b1, b2, _, b4, _, b6⟩ := answer m' hm'
  have inj : ∀ {α : Type} (o : α → List Byte) (p : List Byte → α), (∀ h, p (o h) = h) → ∀ {x y : α}, o x = o y → x = y :=
    fun {_} o p hp {x y} h => by rw [← hp x, ← hp y, h]
  refine ⟨fun h => s1 ?_, fun h => s2 ?_, fun h => s4 ?_, fun h => s6 ?_⟩
  · rw [a1, b1] at h; exact inj _ parseMd5 parseMd5_out h
  · rw [a2, b2] at h; exact inj _ parseSha1 parseSha1_out h
  · rw [a4, b4] at h; exact inj _ parse256 parse256_out h
  · rw [a6, b6] at h; exact inj _ parse512 parse512_out h

/-- The hypotheses hold for the published colliding messages, so what follows for them is not empty. -/
example : md5A.length < 2 ^ 61 ∧ md5B.length < 2 ^ 61 ∧ md5A ≠ md5B ∧ hashOf .md5 md5A = hashOf .md5 md5B ∧ ∃ i j, CollideAt md5 (withGlue .md5 md5A) (withGlue .md5 md5B) i j := by
  have h := C133_md5 []
  rw [List.append_nil, List.append_nil] at h
  have l1 : md5A.length < 2 ^ 61 := by decide +kernel
  have l2 : md5B.length < 2 ^ 61 := by decide +kernel
  exact ⟨l1, l2, h.1, h.2.2, (C138_collision md5A md5B l1 l2 h.1).1 h.2.2⟩

/-- The same for SHA-1. -/
example : ∃ i j, CollideAt sha1 (withGlue .sha1 sha1A) (withGlue .sha1 sha1B) i j := by
  have h := C133_sha1 []
  rw [List.append_nil, List.append_nil] at h
  exact (C138_collision sha1A sha1B (by decide +kernel) (by decide +kernel) h.1).2.1 h.2.2

/-- C138 for the two truncated classes: the same, or the two final states are different and agree in the part that is returned. -/
theorem C138_truncated (m m' : List Byte) (hm : m.length < 2 ^ 61) (hm' : m'.length < 2 ^ 61) (hne : m ≠ m') :
    (hashOf .sha2_224 m = hashOf .sha2_224 m' → (∃ i j, CollideAt sha224 (withGlue .sha2_224 m) (withGlue .sha2_224 m') i j) ∨
      (sha256Out (finalState sha224 (withGlue .sha2_224 m)) ≠ sha256Out (finalState sha224 (withGlue .sha2_224 m')) ∧
        (sha256Out (finalState sha224 (withGlue .sha2_224 m))).take 28 = (sha256Out (finalState sha224 (withGlue .sha2_224 m'))).take 28)) ∧
    (hashOf .sha2_384 m = hashOf .sha2_384 m' → (∃ i j, CollideAt sha384 (withGlue .sha2_384 m) (withGlue .sha2_384 m') i j) ∨
      (sha512Out (finalState sha384 (withGlue .sha2_384 m)) ≠ sha512Out (finalState sha384 (withGlue .sha2_384 m')) ∧
        (sha512Out (finalState sha384 (withGlue .sha2_384 m))).take 48 = (sha512Out (finalState sha384 (withGlue .sha2_384 m'))).take 48)) := by
  obtain ⟨_, _, s3, _, s5, _⟩ := state_collision m m' hm hm' hne
  obtain ⟨_, _, a3, _, a5, _⟩ := answer m hm
  obtain ⟨_, _, b3, _, b5, _⟩ := answer m' hm'
  refine ⟨fun h => ?_, fun h => ?_⟩
  · by_cases hs : finalState sha224 (withGlue .sha2_224 m) = finalState sha224 (withGlue .sha2_224 m')
    · exact Or.inl (s3 hs)
    · refine Or.inr ⟨fun hh => hs ?_, by rw [a3, b3] at h; exact h⟩
      exact (parse256_out _).symm.trans ((congrArg parse256 hh).trans (parse256_out _))
  · by_cases hs : finalState sha384 (withGlue .sha2_384 m) = finalState sha384 (withGlue .sha2_384 m')
    · exact Or.inl (s5 hs)
    · refine Or.inr ⟨fun hh => hs ?_, by rw [a5, b5] at h; exact h⟩
      exact (parse512_out _).symm.trans ((congrArg parse512 hh).trans (parse512_out _))

/-- A case that meets the hypotheses of `C138_truncated`. -/
example := C138_truncated [1#8] [2#8, 3#8] (by decide) (by decide) (by decide)

end Verif.Props
