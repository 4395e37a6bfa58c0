import Mathlib.Data.Fintype.EquivFin
import Verif.Props.LengthExtension

/-! C117: every block has exactly one chaining value that it leaves unchanged. -/

namespace Verif.Props
open Verif.Model Verif.Proof

instance finiteBitVec (n : Nat) : Finite (BitVec n) := Finite.of_injective BitVec.toFin (fun _ _ h => BitVec.eq_of_toFin_eq h)

theorem rotate_inj {l : Nat} (h0 : 0 < l) (hl : l < 32) {x y : U32} (h : rotate x l = rotate y l) : x = y := by
  rw [rotate_eq x h0 hl, rotate_eq y h0 hl] at h
  apply BitVec.eq_of_getLsbD_eq
  intro i hi
  have h1 := congrArg (fun v => v.getLsbD ((i + l) % 32)) h
  simp only [BitVec.getLsbD_rotateLeft] at h1
  have hm : l % 32 = l := Nat.mod_eq_of_lt hl
  rw [hm] at h1
  by_cases hc : i + l < 32
  · rw [Nat.mod_eq_of_lt hc] at h1
    simpa [show ¬ i + l < l by omega, hc] using h1
  · have e : (i + l) % 32 = i + l - 32 := by omega
    rw [e] at h1
    simpa [show i + l - 32 < l by omega, show 32 - l + (i + l - 32) = i by omega] using h1

theorem foldl_inj {α ι : Type} (f : α → ι → α) (l : List ι) (hf : ∀ i ∈ l, Function.Injective (fun x => f x i)) :
    Function.Injective (fun x => l.foldl f x) := by
  induction l with
  | nil => exact fun _ _ h => h
  | cons i l ih =>
    intro x y h
    exact hf i (by simp) (ih (fun j hj => hf j (List.mem_cons_of_mem _ hj)) h)

theorem add_left32 {n : Nat} {x y z : BitVec n} (h : x + y = x + z) : y = z := by
  simpa using h
theorem add_right32 {n : Nat} {x y z : BitVec n} (h : y + x = z + x) : y = z := by
  simpa using h

theorem md5s_range : ∀ i, i < 64 → 0 < Model.md5s.getD i 0 ∧ Model.md5s.getD i 0 < 32 := by decide

theorem md5Step_inj (chunk : List Byte) (i : Nat) (hi : i < 64) : Function.Injective (fun x => md5Step chunk i x) := by
  rintro ⟨a, b, c, d⟩ ⟨a', b', c', d'⟩ h
  simp only [md5Step, Prod.mk.injEq] at h
  obtain ⟨rfl, h, rfl, rfl⟩ := h
  have h := rotate_inj (md5s_range i hi).1 (md5s_range i hi).2 (add_left32 h)
  rw [add_left32 (add_right32 (add_right32 h))]

theorem sha1Step_inj (w : List U32) (i : Nat) : Function.Injective (fun x => sha1Step w x i) := by
  rintro ⟨a, b, c, d, e⟩ ⟨a', b', c', d', e'⟩ h
  simp only [sha1Step, Prod.mk.injEq] at h
  obtain ⟨h, rfl, hb, rfl, rfl⟩ := h
  obtain rfl := rotate_inj (by decide) (by decide) hb
  have : e = e' := by
    split at h
    · exact add_left32 (add_right32 (add_right32 h))
    · split at h
      · exact add_left32 (add_right32 (add_right32 h))
      · split at h <;> exact add_left32 (add_right32 (add_right32 h))
  rw [this]

theorem sha256Step_inj (w : List U32) (i : Nat) : Function.Injective (fun x => sha256Step w x i) := by
  rintro ⟨a, b, c, d, e, f, g, h⟩ ⟨a', b', c', d', e', f', g', h'⟩ hh
  simp only [sha256Step, Prod.mk.injEq] at hh
  obtain ⟨h1, rfl, rfl, rfl, h2, rfl, rfl, rfl⟩ := hh
  have h3 := add_right32 h1
  rw [h3] at h2
  rw [add_right32 h2, add_right32 (add_right32 (add_right32 (add_right32 h3)))]

theorem sha512Step_inj (w : List U64) (i : Nat) : Function.Injective (fun x => sha512Step w x i) := by
  rintro ⟨a, b, c, d, e, f, g, h⟩ ⟨a', b', c', d', e', f', g', h'⟩ hh
  simp only [sha512Step, Prod.mk.injEq] at hh
  obtain ⟨h1, rfl, rfl, rfl, h2, rfl, rfl, rfl⟩ := hh
  have h3 := add_right32 h1
  rw [h3] at h2
  rw [add_right32 h2, add_right32 (add_right32 (add_right32 (add_right32 h3)))]

theorem unique_zero {α : Type} [Finite α] (f : α → α) (hf : Function.Injective f) (P : α → Prop) (z : α) (hP : ∀ x, P x ↔ f x = z) : ∃! x, P x := by
  obtain ⟨x, hx⟩ := (Finite.injective_iff_surjective.mp hf) z
  exact ⟨x, (hP x).mpr hx, fun y hy => hf (((hP y).mp hy).trans hx.symm)⟩

theorem add_self32 {n : Nat} (x y : BitVec n) : x + y = x ↔ y = 0#n := by simp

theorem md5_fixed (b : List Byte) : ∃! h, md5Compress h b = h := by
  refine unique_zero _ (foldl_inj (fun st i => md5Step b i st) (List.range 64) (fun i hi => md5Step_inj b i (List.mem_range.mp hi))) _ (0#32, 0#32, 0#32, 0#32) ?_
  rintro ⟨h0, h1, h2, h3⟩
  simp only [md5Compress]
  generalize (List.range 64).foldl (fun st i => md5Step b i st) (h0, h1, h2, h3) = r
  obtain ⟨r0, r1, r2, r3⟩ := r
  simp only [Prod.mk.injEq, add_self32]

theorem sha1_fixed (b : List Byte) : ∃! h, Model.sha1Compress h b = h := by
  refine unique_zero _ (foldl_inj (sha1Step (Model.sha1W b)) (List.range 80) (fun i _ => sha1Step_inj _ i)) _ (0#32, 0#32, 0#32, 0#32, 0#32) ?_
  rintro ⟨h0, h1, h2, h3, h4⟩
  simp only [Model.sha1Compress]
  generalize (List.range 80).foldl (sha1Step (Model.sha1W b)) (h0, h1, h2, h3, h4) = r
  obtain ⟨r0, r1, r2, r3, r4⟩ := r
  simp only [Prod.mk.injEq, add_self32]

theorem sha2Add_self {n : Nat} (h r : Sha2H n) : sha2Add h r = h ↔ r = (0#n, 0#n, 0#n, 0#n, 0#n, 0#n, 0#n, 0#n) := by
  obtain ⟨h0, h1, h2, h3, h4, h5, h6, h7⟩ := h
  obtain ⟨r0, r1, r2, r3, r4, r5, r6, r7⟩ := r
  simp only [sha2Add, Prod.mk.injEq, add_self32]

theorem sha256_fixed (b : List Byte) : ∃! h, sha256Compress h b = h :=
  unique_zero _ (foldl_inj (sha256Step (sha256W b)) (List.range 64) (fun i _ => sha256Step_inj _ i)) _ _ (fun h => sha2Add_self h _)

theorem sha512_fixed (b : List Byte) : ∃! h, sha512Compress h b = h :=
  unique_zero _ (foldl_inj (sha512Step (sha512W b)) (List.range 80) (fun i _ => sha512Step_inj _ i)) _ _ (fun h => sha2Add_self h _)

/-- The six hashes with a chaining value. -/
def chained : List BlockAlg := [md5, sha1, sha224, sha256, sha384, sha512]

theorem compress_fixed (A : BlockAlg) (hA : A ∈ chained) (b : List Byte) : ∃! h, A.compress h b = h := by
  simp only [chained, List.mem_cons, List.not_mem_nil, or_false] at hA
  rcases hA with rfl | rfl | rfl | rfl | rfl | rfl
  · exact md5_fixed b
  · exact sha1_fixed b
  · exact sha256_fixed b
  · exact sha256_fixed b
  · exact sha512_fixed b
  · exact sha512_fixed b

theorem add_block {A : BlockAlg} (h : A.σ) (junk b : List Byte) (n : U64) (hj : junk.length = A.B) (hb : b.length = A.B) (hn : n.toNat % A.B = 0) :
    BlockState.add ⟨h, junk, n⟩ b = ⟨A.compress h b, b, n + BitVec.ofNat 64 A.B⟩ := by
  have hB := A.Bpos
  have ho : overwrite junk 0 b = b := by
    rw [overwrite]; simp [hb, hj]
  rw [BlockState.add]
  simp only [hn, ne_eq, not_true_eq_false, if_false]
  rw [BlockState.addLoop, if_pos (by omega), BlockState.addLoop]
  simp only [List.length_drop, hb, Nat.sub_self]
  rw [if_neg (by omega), if_neg (by omega), BlockState.processChunk, List.take_of_length_le (by omega), ho]

theorem chained_block (A : BlockAlg) (hA : A ∈ chained) : A.B = 64 ∨ A.B = 128 := by
  simp only [chained, List.mem_cons, List.not_mem_nil, or_false] at hA
  rcases hA with rfl | rfl | rfl | rfl | rfl | rfl
  · exact Or.inl rfl
  · exact Or.inl rfl
  · exact Or.inl rfl
  · exact Or.inl rfl
  · exact Or.inr rfl
  · exact Or.inr rfl

/-- C117: for every block there is exactly one chaining value with which an object at a block boundary has the same chaining value after the block has been
added, whatever the number of bytes before it. -/
theorem C117_fixed (A : BlockAlg) (hA : A ∈ chained) (b junk : List Byte) (hb : b.length = A.B) (hj : junk.length = A.B) :
    ∃! h : A.σ, ∀ n : U64, n.toNat % A.B = 0 → (BlockState.add ⟨h, junk, n⟩ b).h = h := by
  obtain ⟨h, hh, hu⟩ := compress_fixed A hA b
  refine ⟨h, fun n hn => by rw [add_block h junk b n hj hb hn]; exact hh, fun h' hh' => hu h' ?_⟩
  have := hh' 0#64 (Nat.zero_mod _)
  rwa [add_block h' junk b 0#64 hj hb (Nat.zero_mod _)] at this

/-- A case that meets the hypotheses of `C117_fixed`. -/
example := fun A hA => C117_fixed A hA (List.replicate A.B 1#8) (List.replicate A.B 2#8) List.length_replicate List.length_replicate

/-- C117: with that chaining value the block can be added any number of times; only the counted length changes. -/
theorem C117_repeat (A : BlockAlg) (hA : A ∈ chained) (b junk : List Byte) (hb : b.length = A.B) (hj : junk.length = A.B) (h : A.σ) (n : U64)
    (hn : n.toNat % A.B = 0) (hh : (BlockState.add ⟨h, junk, n⟩ b).h = h) (k : Nat) :
    ((fun s : BlockState A => s.add b)^[k + 1] ⟨h, junk, n⟩) = ⟨h, b, n + BitVec.ofNat 64 ((k + 1) * A.B)⟩ := by
  rw [add_block h junk b n hj hb hn] at hh
  have hh : A.compress h b = h := hh
  induction k with
  | zero =>
    rw [Function.iterate_one, add_block h junk b n hj hb hn, hh, Nat.zero_add, Nat.one_mul]
  | succ k ih =>
    rw [Function.iterate_succ_apply', ih]
    have hm : (n + BitVec.ofNat 64 ((k + 1) * A.B)).toNat % A.B = 0 := by
      rw [BitVec.toNat_add, BitVec.toNat_ofNat, Nat.add_mod_mod]
      have hd : A.B ∣ 2 ^ 64 := by
        rcases chained_block A hA with h0 | h0 <;> rw [h0] <;> decide
      rw [Nat.mod_mod_of_dvd _ hd, Nat.add_mod, hn, Nat.mul_mod_left]
      simp
    show BlockState.add _ b = _
    rw [add_block h b b _ hb hb hm, hh, BitVec.add_assoc]
    congr 2
    rw [Nat.succ_mul (k + 1) A.B, BitVec.ofNat_add]

/-- The chaining value of SHA-256 that the block of 64 letters `a` leaves unchanged, as in C117. -/
example : sha256 ∈ chained ∧ (BlockState.add (A := sha256) ⟨(0xb6d07bb2, 0xee350b76, 0xac02657c, 0xa82fdb09, 0x91d51236, 0x3a8e6f96, 0x9196ddd3, 0xc4a10778),
    List.replicate 64 0#8, 128#64⟩ (List.replicate 64 0x61#8)).h = (0xb6d07bb2, 0xee350b76, 0xac02657c, 0xa82fdb09, 0x91d51236, 0x3a8e6f96, 0x9196ddd3, 0xc4a10778) := by
  refine ⟨by simp [chained], ?_⟩
  have h : sha256Compress (0xb6d07bb2, 0xee350b76, 0xac02657c, 0xa82fdb09, 0x91d51236, 0x3a8e6f96, 0x9196ddd3, 0xc4a10778) (List.replicate 64 0x61#8) =
    (0xb6d07bb2, 0xee350b76, 0xac02657c, 0xa82fdb09, 0x91d51236, 0x3a8e6f96, 0x9196ddd3, 0xc4a10778) := by kernel_rfl
  exact (congrArg BlockState.h (add_block (A := sha256) _ (List.replicate 64 0#8) (List.replicate 64 0x61#8) 128#64 rfl rfl rfl)).trans h

end Verif.Props
