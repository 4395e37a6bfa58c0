import Mathlib.Combinatorics.Pigeonhole
import Verif.Props.MerkleDamgard
import Verif.Props.KnownCollision

/-! C148: colliding blocks, one after the other, give exponentially many messages with one digest. -/

namespace Verif.Props
open Verif Verif.Model Verif.Spec Verif.Proof

/-- A list of pairs of different blocks (or runs of blocks) of equal length, each of which leads from the chaining value that the pairs before it produce to one
and the same next chaining value. -/
def Colliding (A : BlockAlg) : A.σ → List (List Byte × List Byte) → Prop
  | _, [] => True
  | s, p :: ps => p.1 ≠ p.2 ∧ A.B ∣ p.1.length ∧ p.1.length = p.2.length ∧
      Spec.iterate A.compress s (Spec.blocks A.B p.1) = Spec.iterate A.compress s (Spec.blocks A.B p.2) ∧
      Colliding A (Spec.iterate A.compress s (Spec.blocks A.B p.1)) ps

/-- Every message made by taking one side of each pair. -/
def choices : List (List Byte × List Byte) → List (List Byte)
  | [] => [[]]
  | p :: ps => (choices ps).map (p.1 ++ ·) ++ (choices ps).map (p.2 ++ ·)

/-- The six classes that chain blocks, with their compression functions. -/
def chainOf : HashClass → Option BlockAlg
  | .md5 => some md5
  | .sha1 => some sha1
  | .sha2_224 => some sha224
  | .sha2_256 => some sha256
  | .sha2_384 => some sha384
  | .sha2_512 => some sha512
  | _ => none

/-- The number of messages. -/
theorem choices_length (ps : List (List Byte × List Byte)) : (choices ps).length = 2 ^ ps.length := by
  induction ps with
  | nil => rfl
  | cons p ps ih => rw [choices, List.length_append, List.length_map, List.length_map, ih, List.length_cons, pow_succ]; omega

/-- What is common to all the messages. -/
theorem choices_run {A : BlockAlg} : ∀ (ps : List (List Byte × List Byte)) (s : A.σ), Colliding A s ps →
    (choices ps).Nodup ∧ ∃ (t : A.σ) (n : Nat), A.B ∣ n ∧ ∀ x ∈ choices ps, x.length = n ∧ Spec.iterate A.compress s (Spec.blocks A.B x) = t := by
  intro ps
  induction ps with
  | nil =>
    intro s _
    refine ⟨by simp [choices], s, 0, Nat.dvd_zero _, fun x hx => ?_⟩
    have : x = [] := by simpa [choices] using hx
    subst this
    refine ⟨rfl, ?_⟩
    rw [Spec.blocks, if_neg (by have := A.Bpos; simp only [List.length_nil]; omega)]; rfl
  | cons p ps ih =>
    intro s ⟨hne, hd, hl, he, hr⟩
    obtain ⟨hn, t, n, hdn, ht⟩ := ih _ hr
    have inj : ∀ q : List Byte, Function.Injective (q ++ · : List Byte → List Byte) := fun q a b h => List.append_cancel_left h
    refine ⟨?_, t, p.1.length + n, Dvd.dvd.add hd hdn, ?_⟩
    · rw [choices]
      refine List.Nodup.append (hn.map (inj _)) (hn.map (inj _)) ?_
      intro x hx hx'
      obtain ⟨a, -, ha⟩ := List.mem_map.mp hx
      obtain ⟨b, -, hb⟩ := List.mem_map.mp hx'
      exact hne (List.append_inj (ha.trans hb.symm) hl).1
    · intro x hx
      rw [choices, List.mem_append] at hx
      have run : ∀ q a : List Byte, A.B ∣ q.length → Spec.iterate A.compress s (Spec.blocks A.B (q ++ a)) =
          Spec.iterate A.compress (Spec.iterate A.compress s (Spec.blocks A.B q)) (Spec.blocks A.B a) := fun q a h => by
        rw [blocks_append A.Bpos q a h, Spec.iterate, Spec.iterate, Spec.iterate, List.foldl_append]
      rcases hx with hx | hx
      · obtain ⟨a, ha, rfl⟩ := List.mem_map.mp hx
        exact ⟨by rw [List.length_append, (ht a ha).1], by rw [run _ _ hd, (ht a ha).2]⟩
      · obtain ⟨a, ha, rfl⟩ := List.mem_map.mp hx
        exact ⟨by rw [List.length_append, (ht a ha).1, hl], by rw [run _ _ (hl ▸ hd), ← he, (ht a ha).2]⟩

/-- The message object of each of the six classes. -/
theorem hashOf_chain {c : HashClass} {A : BlockAlg} (h : chainOf c = some A) :
    A.B ∣ 2 ^ 64 ∧ ∃ junk : List Byte, junk.length = A.B ∧ ∀ m, hashOf c m = ((BlockState.new A junk).add m).data := by
  cases c <;> simp only [chainOf, Option.some.injEq, reduceCtorEq] at h <;> subst h <;>
    exact ⟨by decide, _, List.length_replicate, fun _ => rfl⟩

/-- C148: `k` pairs of blocks that collide one after the other give `2^k` different messages of one length which all have the same digest, with every suffix. The
pairs may start after any prefix of whole blocks. -/
theorem C148 (c : HashClass) (A : BlockAlg) (hc : chainOf c = some A) (pre suffix : List Byte) (hp : A.B ∣ pre.length) (ps : List (List Byte × List Byte))
    (h : Colliding A (Spec.iterate A.compress A.init (Spec.blocks A.B pre)) ps) :
    (choices ps).length = 2 ^ ps.length ∧ (choices ps).Nodup ∧
    ∀ x ∈ choices ps, ∀ y ∈ choices ps, x.length = y.length ∧ hashOf c (pre ++ x ++ suffix) = hashOf c (pre ++ y ++ suffix) := by
  obtain ⟨hn, t, n, hdn, ht⟩ := choices_run ps _ h
  obtain ⟨hB, junk, hj, hh⟩ := hashOf_chain hc
  refine ⟨choices_length ps, hn, fun x hx y hy => ⟨by rw [(ht x hx).1, (ht y hy).1], ?_⟩⟩
  have run : ∀ a, Spec.iterate A.compress A.init (Spec.blocks A.B (pre ++ a)) =
      Spec.iterate A.compress (Spec.iterate A.compress A.init (Spec.blocks A.B pre)) (Spec.blocks A.B a) := fun a => by
    rw [blocks_append A.Bpos pre a hp, Spec.iterate, Spec.iterate, Spec.iterate, List.foldl_append]
  rw [hh, hh]
  refine same_with_suffix hB _ _ suffix junk hj ?_ ?_ ?_
  · rw [List.length_append, (ht x hx).1]; exact Dvd.dvd.add hp hdn
  · rw [List.length_append, List.length_append, (ht x hx).1, (ht y hy).1]
  · rw [run, run, (ht x hx).2, (ht y hy).2]

/-- C148, two hashes side by side: with more pairs than the second class has bits in its result, two of the messages also agree in the second hash, so sending
both results next to one another is no stronger than finding the collisions of the weaker class. -/
theorem C148_cascade (c c' : HashClass) (A : BlockAlg) (hc : chainOf c = some A) (pre suffix : List Byte) (hp : A.B ∣ pre.length) (ps : List (List Byte × List Byte))
    (h : Colliding A (Spec.iterate A.compress A.init (Spec.blocks A.B pre)) ps) (hk : 8 * hashsize c' < ps.length) :
    ∃ x y, x ≠ y ∧ x.length = y.length ∧ hashOf c (pre ++ x ++ suffix) = hashOf c (pre ++ y ++ suffix) ∧ hashOf c' (pre ++ x ++ suffix) = hashOf c' (pre ++ y ++ suffix) := by
  obtain ⟨hl, hn, hall⟩ := C148 c A hc pre suffix hp ps h
  have hlen : ∀ x, (hashOf c' (pre ++ x ++ suffix)).length = hashsize c' := fun x => hashOf_length c' _
  have maps : ∀ x ∈ (choices ps).toFinset, leNat (hashOf c' (pre ++ x ++ suffix)) ∈ Finset.range (2 ^ (8 * hashsize c')) := fun x _ => by
    rw [Finset.mem_range, ← hlen x]; exact leNat_lt _
  obtain ⟨x, hx, y, hy, hne, he⟩ := Finset.exists_ne_map_eq_of_card_lt_of_maps_to (by
    rw [Finset.card_range, List.toFinset_card_of_nodup hn, hl]; exact Nat.pow_lt_pow_right (by decide) hk) maps
  rw [List.mem_toFinset] at hx hy
  exact ⟨x, y, hne, (hall x hx y hy).1, (hall x hx y hy).2, leNat_inj (by rw [hlen, hlen]) he⟩

/-- Colliding pairs exist after every chaining value, any number of them, when there are more blocks than chaining values. -/
theorem colliding_exists {A : BlockAlg} {r : Nat} (o : A.σ → List Byte) (p : List Byte → A.σ) (hop : ∀ h, p (o h) = h) (ho : ∀ h, (o h).length = r) (hr : r < A.B) :
    ∀ (k : Nat) (s : A.σ), ∃ ps, ps.length = k ∧ Colliding A s ps
  | 0, _ => ⟨[], rfl, trivial⟩
  | k + 1, s => by
    have hi : Function.Injective (fun n => leBytes A.B n : Fin (2 ^ (8 * A.B)) → List Byte) := fun a b h => by
      have e : (256 : Nat) ^ A.B = 2 ^ (8 * A.B) := by rw [Nat.pow_mul]
      exact Fin.ext (leBytes_inj A.B a b (by rw [e]; exact a.2) (by rw [e]; exact b.2) h)
    have maps : ∀ n ∈ (Finset.univ : Finset (Fin (2 ^ (8 * A.B)))), leNat (o (Spec.iterate A.compress s (Spec.blocks A.B (leBytes A.B n)))) ∈ Finset.range (2 ^ (8 * r)) := fun n _ => by
      rw [Finset.mem_range]
      have := leNat_lt (o (Spec.iterate A.compress s (Spec.blocks A.B (leBytes A.B n))))
      rwa [ho] at this
    obtain ⟨x, -, y, -, hne, he⟩ := Finset.exists_ne_map_eq_of_card_lt_of_maps_to (by
      rw [Finset.card_range, Finset.card_univ, Fintype.card_fin]; exact Nat.pow_lt_pow_right (by decide) (by omega)) maps
    have e : Spec.iterate A.compress s (Spec.blocks A.B (leBytes A.B x)) = Spec.iterate A.compress s (Spec.blocks A.B (leBytes A.B y)) := by
      rw [← hop (Spec.iterate A.compress s (Spec.blocks A.B (leBytes A.B x))), leNat_inj (by rw [ho, ho]) he, hop]
    obtain ⟨ps, hl, hps⟩ := colliding_exists o p hop ho hr k (Spec.iterate A.compress s (Spec.blocks A.B (leBytes A.B x)))
    have len : ∀ n, (leBytes A.B n).length = A.B := fun n => by simp [leBytes]
    exact ⟨(leBytes A.B x, leBytes A.B y) :: ps, by rw [List.length_cons, hl], fun h => hne (hi h), by rw [len], by rw [len, len], e, hps⟩

/-- The hypothesis of C148 can be met in every class, after every prefix, for every number of pairs. -/
theorem C148_exists (c : HashClass) (A : BlockAlg) (hc : chainOf c = some A) (pre : List Byte) (k : Nat) :
    ∃ ps, ps.length = k ∧ Colliding A (Spec.iterate A.compress A.init (Spec.blocks A.B pre)) ps := by
  have l256 : ∀ h, (sha256Out h).length = 32 := fun h => by
    simp only [sha256Out, outBE32, List.length_flatMap, List.length_map, List.length_range, List.map_cons, List.map_nil, List.sum_cons, List.sum_nil, Nat.reduceAdd]
  have l512 : ∀ h, (sha512Out h).length = 64 := fun h => by
    simp only [sha512Out, outBE64, List.length_flatMap, List.length_map, List.length_range, List.map_cons, List.map_nil, List.sum_cons, List.sum_nil, Nat.reduceAdd]
  have lmd5 : ∀ h, (md5Out h).length = 16 := fun h => by
    simp only [md5Out, List.length_flatMap, List.length_map, List.length_range, List.map_cons, List.map_nil, List.sum_cons, List.sum_nil, Nat.reduceAdd]
  have lsha1 : ∀ h, (sha1Out h).length = 20 := fun h => by
    simp only [sha1Out, outBE32, List.length_flatMap, List.length_map, List.length_range, List.map_cons, List.map_nil, List.sum_cons, List.sum_nil, Nat.reduceAdd]
  cases c <;> simp only [chainOf, Option.some.injEq, reduceCtorEq] at hc <;> subst hc
  · exact colliding_exists (A := md5) md5Out parseMd5 parseMd5_out lmd5 (by decide) k _
  · exact colliding_exists (A := sha1) sha1Out parseSha1 parseSha1_out lsha1 (by decide) k _
  · exact colliding_exists (A := sha224) sha256Out parse256 parse256_out l256 (by decide) k _
  · exact colliding_exists (A := sha256) sha256Out parse256 parse256_out l256 (by decide) k _
  · exact colliding_exists (A := sha384) sha512Out parse512 parse512_out l512 (by decide) k _
  · exact colliding_exists (A := sha512) sha512Out parse512 parse512_out l512 (by decide) k _

/-- The published MD5 collision is such a pair, after no prefix; the two messages agree with every suffix. -/
example (suffix : List Byte) : Colliding md5 (Spec.iterate md5.compress md5.init (Spec.blocks md5.B [])) [(md5A, md5B)] ∧
    hashOf .md5 ([] ++ (md5A ++ []) ++ suffix) = hashOf .md5 ([] ++ (md5B ++ []) ++ suffix) := by
  have e : Spec.iterate md5.compress md5.init (Spec.blocks md5.B []) = md5.init := by
    rw [Spec.blocks, if_neg (by decide)]; rfl
  have h : Colliding md5 (Spec.iterate md5.compress md5.init (Spec.blocks md5.B [])) [(md5A, md5B)] := by
    rw [e]
    exact ⟨by decide +kernel, by decide +kernel, by decide +kernel, md5_chain, trivial⟩
  exact ⟨h, ((C148 .md5 md5 rfl [] suffix (Nat.dvd_zero _) _ h).2.2 _ (by simp [choices]) _ (by simp [choices])).2⟩

/-- 200 MD5 pairs exist, and two of the messages they make agree in MD5 and in SHA-1 at once, with every suffix. -/
example (suffix : List Byte) : ∃ x y, x ≠ y ∧ x.length = y.length ∧ hashOf .md5 ([] ++ x ++ suffix) = hashOf .md5 ([] ++ y ++ suffix) ∧
    hashOf .sha1 ([] ++ x ++ suffix) = hashOf .sha1 ([] ++ y ++ suffix) := by
  obtain ⟨ps, hl, h⟩ := C148_exists .md5 md5 rfl [] 200
  exact C148_cascade .md5 .sha1 md5 rfl [] suffix (Nat.dvd_zero _) ps h (by rw [hl]; decide)

end Verif.Props
