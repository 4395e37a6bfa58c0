import Verif.Model.Rsa
import Verif.Spec.Rsa
import Verif.Proof.Mont
import Verif.Props.Hash
import Mathlib.FieldTheory.Finite.Basic
import Mathlib.Data.Nat.ChineseRemainder

namespace Verif.Proof
open Verif.Model Verif.Spec

theorem szSub_eq {a b : Nat} (h : b ≤ a) (ha : a < 2 ^ 64) : szSub a b = a - b := by
  unfold szSub; omega

theorem szSub_wrap {a b : Nat} (h : a < b) (hb : b ≤ 2 ^ 64) : szSub a b = a + 2 ^ 64 - b := by
  unfold szSub; omega

theorem hashOf_length (c : HashClass) (m : List Byte) : (hashOf c m).length = hashsize c := Props.hdata_length _ _

theorem hashOf_eq (c : HashClass) (m : List Byte) (hm : m.length < 2 ^ 61) : hashOf c m = digest c m :=
  Props.digest_correct c _ (by simp) m hm

theorem hashsize_pos (c : HashClass) : 0 < hashsize c := by cases c <;> decide

theorem hashsize_eq (c : HashClass) : hashsize c = digestLength c := by cases c <;> rfl

theorem digest_length (c : HashClass) (m : List Byte) (hm : m.length < 2 ^ 61) : (digest c m).length = hashsize c := by
  rw [← hashOf_eq c m hm, hashOf_length]

/-! ### MGF1 -/

theorem i2osp_length (n k : Nat) : (i2osp n k).length = k := by simp [i2osp]

theorem i2osp_four (n : Nat) : i2osp n 4 = [BitVec.ofNat 8 (n / 256 ^ 3), BitVec.ofNat 8 (n / 256 ^ 2), BitVec.ofNat 8 (n / 256), BitVec.ofNat 8 n] := by
  simp [i2osp, List.range, List.range.loop]

theorem set_append_ge {α : Type} (s t : List α) (i : Nat) (x : α) : (s ++ t).set (s.length + i) x = s ++ t.set i x := by
  rw [List.set_append_right _ _ (by omega)]; congr 2; omega

theorem mgfIncr_four (s : List Byte) (a b c d : Byte) : mgfIncr (s ++ [a, b, c, d]) =
    .ok (s ++ (if d + 1#8 = 0#8 then (if c + 1#8 = 0#8 then (if b + 1#8 = 0#8 then [a + 1#8, b + 1#8, c + 1#8, d + 1#8]
      else [a, b + 1#8, c + 1#8, d + 1#8]) else [a, b, c + 1#8, d + 1#8]) else [a, b, c, d + 1#8])) := by
  have hl : ∀ (w x y z : Byte), (s ++ [w, x, y, z]).length = s.length + 4 := by intros; simp
  have r1 : ∀ (w x y z : Byte), rd (s ++ [w, x, y, z]) (s.length + 3) = .ok z := by intros; simp [rd]
  have r2 : ∀ (w x y z : Byte), rd (s ++ [w, x, y, z]) (s.length + 2) = .ok y := by intros; simp [rd]
  have r3 : ∀ (w x y z : Byte), rd (s ++ [w, x, y, z]) (s.length + 1) = .ok x := by intros; simp [rd]
  have r4 : ∀ (w x y z : Byte), rd (s ++ [w, x, y, z]) (s.length + 0) = .ok w := by intros; simp [rd]
  have w1 : ∀ (w x y z v : Byte), wr (s ++ [w, x, y, z]) (s.length + 3) v = .ok (s ++ [w, x, y, v]) := by
    intros; rw [wr_ok _ (by simp), set_append_ge]; rfl
  have w2 : ∀ (w x y z v : Byte), wr (s ++ [w, x, y, z]) (s.length + 2) v = .ok (s ++ [w, x, v, z]) := by
    intros; rw [wr_ok _ (by simp), set_append_ge]; rfl
  have w3 : ∀ (w x y z v : Byte), wr (s ++ [w, x, y, z]) (s.length + 1) v = .ok (s ++ [w, v, y, z]) := by
    intros; rw [wr_ok _ (by simp), set_append_ge]; rfl
  have w4 : ∀ (w x y z v : Byte), wr (s ++ [w, x, y, z]) (s.length + 0) v = .ok (s ++ [v, x, y, z]) := by
    intros; rw [wr_ok _ (by simp), set_append_ge]; rfl
  unfold mgfIncr
  rw [hl, show s.length + 4 - 1 = s.length + 3 by omega, r1, loop_ok_bind, w1, loop_ok_bind]
  split
  · rw [hl, show s.length + 4 - 2 = s.length + 2 by omega, r2, loop_ok_bind, w2, loop_ok_bind]
    split
    · rw [hl, show s.length + 4 - 3 = s.length + 1 by omega, r3, loop_ok_bind, w3, loop_ok_bind]
      split
      · rw [hl, show s.length + 4 - 4 = s.length + 0 by omega, r4, loop_ok_bind, w4]
      · rfl
    · rfl
  · rfl

theorem mgfIncr_i2osp (s : List Byte) (i : Nat) : mgfIncr (s ++ i2osp i 4) = .ok (s ++ i2osp (i + 1) 4) := by
  rw [i2osp_four, mgfIncr_four, i2osp_four]
  have h1 : ∀ n : Nat, BitVec.ofNat 8 n + 1#8 = BitVec.ofNat 8 (n + 1) := by
    intro n; apply BitVec.eq_of_toNat_eq; simp [BitVec.toNat_add, BitVec.toNat_ofNat]
  have h0 : ∀ n : Nat, BitVec.ofNat 8 n = 0#8 ↔ n % 256 = 0 := by
    intro n; rw [← BitVec.toNat_inj]; simp [BitVec.toNat_ofNat]
  have hc : ∀ m n : Nat, m % 256 = n % 256 → BitVec.ofNat 8 m = BitVec.ofNat 8 n := by
    intro m n h; apply BitVec.eq_of_toNat_eq; simpa [BitVec.toNat_ofNat] using h
  simp only [h1, h0]
  norm_num only
  congr 2
  split
  · split
    · split
      · congr 1
        · apply hc; omega
        · congr 1
          · apply hc; omega
          · congr 1
            apply hc; omega
      · congr 1
        · apply hc; omega
        · congr 1
          · apply hc; omega
          · congr 1
            apply hc; omega
    · congr 1
      · apply hc; omega
      · congr 1
        · apply hc; omega
        · congr 1
          apply hc; omega
  · congr 1
    · apply hc; omega
    · congr 1
      · apply hc; omega
      · congr 1
        apply hc; omega

theorem flatMap_range_length {H : Nat → List Byte} {h : Nat} (hH : ∀ i, (H i).length = h) (n : Nat) :
    ((List.range n).flatMap H).length = n * h := by
  induction n with
  | zero => simp
  | succ n ih => rw [List.range_succ, List.flatMap_append, List.length_append, ih]; simp [hH]; ring

theorem flatMap_range_take {H : Nat → List Byte} {h : Nat} (hH : ∀ i, (H i).length = h) (hpos : 0 < h) (len n : Nat) (hn : len ≤ n * h) :
    ((List.range n).flatMap H).take len = ((List.range ((len + h - 1) / h)).flatMap H).take len := by
  have hJ : (len + h - 1) / h ≤ n := by
    rw [Nat.div_le_iff_le_mul_add_pred hpos, Nat.mul_comm]; omega
  have hJ2 : len ≤ (len + h - 1) / h * h := by
    have := Nat.div_add_mod (len + h - 1) h
    have h3 := Nat.mod_lt (len + h - 1) hpos
    rw [Nat.mul_comm]; omega
  obtain ⟨k, rfl⟩ := Nat.exists_eq_add_of_le hJ
  rw [List.range_add, List.flatMap_append, List.take_append_of_le_length]
  rw [flatMap_range_length hH]; exact hJ2

theorem mgfLoop_spec (c : HashClass) (seed : List Byte) (length : Nat) : ∀ (k i : Nat), length ≤ i * hashsize c + k →
    ∃ n, mgfLoop c length k ((List.range i).flatMap (fun j => hashOf c (seed ++ i2osp j 4))) (seed ++ i2osp i 4) =
      .ok ((List.range n).flatMap (fun j => hashOf c (seed ++ i2osp j 4))) ∧ length ≤ n * hashsize c := by
  have hl := flatMap_range_length (H := fun j => hashOf c (seed ++ i2osp j 4)) (fun i => hashOf_length c _)
  have hp := hashsize_pos c
  intro k
  induction k with
  | zero =>
    intro i hi
    refine ⟨i, ?_, by omega⟩
    rw [mgfLoop, hl, if_neg (by omega)]
  | succ k ih =>
    intro i hi
    rw [mgfLoop, hl]
    by_cases h : i * hashsize c < length
    · rw [if_pos h]
      dsimp only
      rw [mgfIncr_i2osp, loop_ok_bind]
      have := ih (i + 1) (by rw [Nat.add_mul]; omega)
      rw [List.range_succ, List.flatMap_append] at this
      simpa using this
    · rw [if_neg h]
      exact ⟨i, rfl, by omega⟩

/-- MGF in terms of the model's own hash; no bound on the seed. -/
theorem mgf_eq (c : HashClass) (seed : List Byte) (length : Nat) (hlen : length ≤ 2 ^ 32) :
    mgf c seed length = .ok (((List.range ((length + hashsize c - 1) / hashsize c)).flatMap (fun j => hashOf c (seed ++ i2osp j 4))).take length) := by
  rw [mgf, if_neg (by omega)]
  obtain ⟨n, h1, h2⟩ := mgfLoop_spec c seed length length 0 (by omega)
  have e0 : i2osp 0 4 = List.replicate 4 0#8 := by decide
  rw [e0, List.range_zero, List.flatMap_nil] at h1
  rw [h1, loop_ok_bind]
  rw [flatMap_range_take (fun i => hashOf_length c _) (hashsize_pos c) length n h2]
  rfl

theorem mgf_length (c : HashClass) (seed : List Byte) (length : Nat) (hlen : length ≤ 2 ^ 32) :
    ∃ m, mgf c seed length = .ok m ∧ m.length = length := by
  refine ⟨_, mgf_eq c seed length hlen, ?_⟩
  have hp := hashsize_pos c
  rw [List.length_take, flatMap_range_length (fun i => hashOf_length c _), Nat.min_eq_left]
  have := Nat.div_add_mod (length + hashsize c - 1) (hashsize c)
  have h3 := Nat.mod_lt (length + hashsize c - 1) hp
  rw [Nat.mul_comm]; omega

theorem mgf_spec (c : HashClass) (seed : List Byte) (length : Nat) (hlen : length ≤ 2 ^ 32) (hs : seed.length + 4 < 2 ^ 61) :
    ∃ m, mgf c seed length = .ok m ∧ m.length = length ∧ mgf1 (digest c) (hashsize c) seed length = some m := by
  obtain ⟨m, h1, h2⟩ := mgf_length c seed length hlen
  refine ⟨m, h1, h2, ?_⟩
  have hp := hashsize_pos c
  rw [mgf1, if_neg (by have : 2 ^ 32 * 1 ≤ 2 ^ 32 * hashsize c := Nat.mul_le_mul_left _ hp
                       omega)]
  rw [mgf_eq c seed length hlen] at h1
  have h3 := Except.ok.inj h1
  rw [← h3]
  congr 3
  funext j
  rw [hashOf_eq c _ (by rw [List.length_append, i2osp_length]; omega)]

/-! ### PKCS #1 v1.5 encoding -/

theorem and_ff (n : Nat) : n &&& 0xFF = n % 256 := Nat.and_two_pow_sub_one_eq_mod n 8

theorem minBytes_zero : minBytes 0 = [] := by rw [minBytes]; simp

theorem pkcs1Prefix_eq (data : List Byte) (h : data.length < 2 ^ 24) : pkcs1Prefix data.length ++ data = tlv 0x30#8 data := by
  rw [tlv, pkcs1Prefix, derLength]
  set n := data.length with hn
  have hmod : ∀ m : Nat, BitVec.ofNat 8 (m % 256) = BitVec.ofNat 8 m := by
    intro m; apply BitVec.eq_of_toNat_eq; simp [BitVec.toNat_ofNat]
  simp only [and_ff, hmod, Nat.shiftRight_eq_div_pow]
  by_cases h1 : n < 0x80
  · rw [if_pos h1, if_pos (by omega)]; rfl
  rw [if_neg h1, if_neg (show ¬ n < 128 by omega)]
  by_cases h2 : n < 0x100
  · have e : minBytes n = [BitVec.ofNat 8 n] := by
      rw [minBytes, if_neg (by omega), show n / 256 = 0 by omega, minBytes_zero]; rfl
    rw [if_pos h2, e]; rfl
  rw [if_neg h2]
  by_cases h3 : n < 0x10000
  · have e : minBytes n = [BitVec.ofNat 8 (n / 2 ^ 8), BitVec.ofNat 8 n] := by
      rw [minBytes, if_neg (by omega), minBytes, if_neg (by omega), show n / 256 / 256 = 0 by omega, minBytes_zero]; rfl
    rw [if_pos h3, e]; rfl
  rw [if_neg h3]
  have e : minBytes n = [BitVec.ofNat 8 (n / 2 ^ 16), BitVec.ofNat 8 (n / 2 ^ 8), BitVec.ofNat 8 n] := by
    rw [minBytes, if_neg (by omega), minBytes, if_neg (by omega), minBytes, if_neg (by omega), show n / 256 / 256 / 256 = 0 by omega,
      minBytes_zero, Nat.div_div_eq_div_mul]; rfl
  rw [e]; rfl

theorem hash_two (c : HashClass) (a b : List Byte) (h : a.length + b.length < 2 ^ 61) :
    hdata c (hadd c (hadd c (hnew0 c) a) b) = digest c (a ++ b) := by
  have := Props.C01_chunking_independent c (List.replicate (bufSize c) 0#8) (by simp) [a, b] (fun _ => by simp; omega)
  simp only [List.foldl, List.flatten_cons, List.flatten_nil, List.append_nil] at this
  rw [← hashOf_eq c _ (by simpa using h)]
  exact this

theorem hash_three (c : HashClass) (a b d : List Byte) (h : a.length + b.length + d.length < 2 ^ 61) :
    hdata c (hadd c (hadd c (hadd c (hnew0 c) a) b) d) = digest c (a ++ b ++ d) := by
  have := Props.C01_chunking_independent c (List.replicate (bufSize c) 0#8) (by simp) [a, b, d] (fun _ => by simp; omega)
  simp only [List.foldl, List.flatten_cons, List.flatten_nil, List.append_nil] at this
  rw [← hashOf_eq c _ (by simpa [Nat.add_assoc] using h), List.append_assoc]
  exact this

theorem asn1Id_length_le (c : HashClass) : (asn1Id c).length ≤ 19 := by cases c <;> decide

theorem hashsize_le (c : HashClass) : hashsize c ≤ 64 := by cases c <;> decide

theorem pkcs1Prefix_length (n : Nat) : (pkcs1Prefix n).length ≤ 5 := by
  unfold pkcs1Prefix; split_ifs <;> simp

/-- PKCS1 in full: `T` is the DigestInfo as the code writes it. -/
theorem pkcs1_spec (c : HashClass) (data : List Byte) (k : Nat) (hd : data.length < 2 ^ 24) (hk : k < 2 ^ 63) :
    pkcs1 c data k = if k ≤ (asn1Id c).length + hashsize c then .error .diverges
      else .ok ([0#8, 1#8] ++ List.replicate (k - ((asn1Id c).length + hashsize c) - 3) 0xFF#8 ++ [0#8] ++ (asn1Id c ++ digest c (tlv 0x30#8 data))) := by
  have h1 := asn1Id_length_le c
  have h2 := hashsize_le c
  have h3 := pkcs1Prefix_length data.length
  rw [pkcs1]
  dsimp only
  rw [hash_two c _ _ (by omega), pkcs1Prefix_eq data hd]
  set a := (asn1Id c).length with ha
  set b := hashsize c with hb
  by_cases hs : k ≤ a + b
  · rw [if_pos hs, if_pos]
    unfold szSub; omega
  · have e : szSub (szSub (szSub k a) b) 1 = k - (a + b) - 1 := by unfold szSub; omega
    rw [if_neg hs, e, if_neg (by omega)]
    rw [show [0#8, 1#8].length = 2 by rfl, show k - (a + b) - 1 - 2 = k - (a + b) - 3 by omega]
    simp only [List.append_assoc]

/-! ### RSA -/

theorem montMul_zero {w : Nat} {st : MontState} (ok : MontOk w st) (a b t : List U32) (ha : a.length = w) (hb : b.length = w)
    (ht : montMul (32 * w) st a b = .ok t) : value t = 0 ↔ value a = 0 ∨ value b = 0 := by
  obtain ⟨p, e1, l1, v1⟩ := bnMul_w w b a hb ha
  rw [montMul, e1, loop_ok_bind] at ht
  rw [redc_zero ok p t l1 ht, v1, Nat.mul_eq_zero, or_comm]

theorem montSquare_zero {w : Nat} {st : MontState} (ok : MontOk w st) (a t : List U32) (ha : a.length = w)
    (ht : montSquare (32 * w) st a = .ok t) : value t = 0 ↔ value a = 0 := by
  obtain ⟨p, e1, l1, v1⟩ := bnMul_w w a a ha ha
  rw [montSquare, bnSquare, e1, loop_ok_bind] at ht
  rw [redc_zero ok p t l1 ht, v1, Nat.mul_eq_zero, or_self]

theorem montExp_zero {w : Nat} {st : MontState} (ok : MontOk w st) (hn : 1 < value st.N) (a e t : List U32) (ha : a.length = w) (he : e.length = w)
    (ht : montExp (32 * w) st a e = .ok t) : value t = 0 ↔ (value a = 0 ∧ value e ≠ 0) := by
  have hw := ok.hw
  obtain ⟨l1, v1⟩ := bnOfU32_spec (32 * w) (by omega) 1#32
  rw [bnN_mul32] at l1
  obtain ⟨one, e2, l2, _⟩ := montOf_zmod ok _ l1
  have z2 := montOf_zero ok hn _ one l1 e2
  rw [v1, show BitVec.toNat 1#32 = 1 by rfl] at z2
  have hone : value one ≠ 0 := fun h => by have := z2.mp h; omega
  obtain ⟨⟨v, b⟩, e3, l3, l4, v3, v4⟩ := loop_inv (n := 32 * w) (s := (one, a)) (body := fun (v, b) n => do
      let ev ← bnBit e n
      let v ← montMul (32 * w) st v (if ev != 0#32 then b else one)
      let b ← montSquare (32 * w) st b
      return (v, b))
    (fun k s => s.1.length = w ∧ s.2.length = w ∧ (value s.1 = 0 ↔ (value a = 0 ∧ value e % 2 ^ k ≠ 0)) ∧ (value s.2 = 0 ↔ value a = 0))
    (by
      refine ⟨l2, ha, ?_, Iff.rfl⟩
      simp [Nat.mod_one, hone])
    (by
      rintro k hk ⟨v, b⟩ ⟨h1, h2, h3, h4⟩
      simp only at h1 h2 h3 h4
      simp only
      rw [bnBit_spec e k (by omega), loop_ok_bind]
      set c := (if (if (value e).testBit k then 1#32 else 0#32) != 0#32 then b else one) with hc
      have lc : c.length = w := by rw [hc]; split <;> assumption
      have zc : value c = 0 ↔ ((value e).testBit k = true ∧ value a = 0) := by
        rw [hc]
        cases (value e).testBit k
        · simp [hone]
        · simp [h4]
      obtain ⟨t, et, lt, _⟩ := montMul_zmod ok v c h1 lc
      obtain ⟨b', eb, lb, _⟩ := montSquare_zmod ok b h2
      rw [et, loop_ok_bind, eb, loop_ok_bind]
      refine ⟨_, rfl, lt, lb, ?_, ?_⟩
      · simp only
        rw [montMul_zero ok v c t h1 lc et, h3, zc, testBit_sum]
        have h2k : 0 < 2 ^ k := by positivity
        cases (value e).testBit k
        · simp
        · simp; tauto
      · simp only
        rw [montSquare_zero ok b b' h2 eb, h4])
  have e4 : montExp (32 * w) st a e = .ok v := by
    rw [montExp, e2, loop_ok_bind, e3, loop_ok_bind]; rfl
  obtain rfl : v = t := Except.ok.inj (e4.symm.trans ht)
  simp only at v3
  rw [v3, Nat.mod_eq_of_lt]
  have := value_lt e
  rwa [he] at this

theorem montExp32_zero {w : Nat} {st : MontState} (ok : MontOk w st) (a t : List U32) (ev : U32) (ha : a.length = w)
    (ht : montExp32 (32 * w) st a ev = .ok t) : value t = 0 ↔ value a = 0 := by
  have hw := ok.hw
  obtain ⟨l1, v1⟩ := bnOfU32_spec (32 * w) (by omega) 1#32
  rw [bnN_mul32] at l1
  obtain ⟨one, e2, l2, v2⟩ := montOf_zmod ok _ l1
  obtain ⟨b, e3, l3, v3⟩ := loop_inv (n := 16) (s := a) (body := fun b _ => montSquare (32 * w) st b)
    (fun k b => b.length = w ∧ (value b = 0 ↔ value a = 0)) ⟨ha, Iff.rfl⟩
    (by
      rintro k hk b ⟨h2, h4⟩
      obtain ⟨b', eb, lb, _⟩ := montSquare_zmod ok b h2
      exact ⟨b', eb, lb, (montSquare_zero ok b b' h2 eb).trans h4⟩)
  have e4 : montMul (32 * w) st b a = .ok t := by
    rw [← ht, montExp32, e2, loop_ok_bind, e3, loop_ok_bind]
  rw [montMul_zero ok b a t l3 ha e4, v3, or_self]

/-- The number that the RSA operations return for the integer `x`: its residue, except that non-zero multiples of `n` give `n`. -/
def canonN (n x : Nat) : Nat := if x ≠ 0 ∧ n ∣ x then n else x % n

theorem canonN_mod (n x : Nat) : canonN n x % n = x % n := by
  unfold canonN
  split
  · next h => rw [Nat.mod_self, Nat.mod_eq_zero_of_dvd h.2]
  · rw [Nat.mod_mod]

theorem canonN_le {n : Nat} (hn : 0 < n) (x : Nat) : canonN n x ≤ n := by
  unfold canonN
  split
  · exact le_refl _
  · exact (Nat.mod_lt _ hn).le

theorem canonN_of_lt {n x : Nat} (h : x < n) : canonN n x = x := by
  unfold canonN
  rw [if_neg, Nat.mod_eq_of_lt h]
  rintro ⟨h1, h2⟩
  have := Nat.le_of_dvd (by omega) h2
  omega

/-- two numbers at most n that are congruent and vanish together -/
theorem canonN_of_mod {n x : Nat} (h : x % n ≠ 0) : canonN n x = x % n := by
  unfold canonN
  rw [if_neg]
  rintro ⟨_, h2⟩
  exact h (Nat.mod_eq_zero_of_dvd h2)

theorem expPath_spec {w : Nat} {st : MontState} (ok : MontOk w st) (hn : 1 < value st.N) (m e : List U32) (hm : m.length = w) (he : e.length = w) :
    ∃ v x r, montOf (32 * w) st m = .ok v ∧ montExp (32 * w) st v e = .ok x ∧ montTo (32 * w) st x = .ok r ∧ r.length = w ∧
      value r = canonN (value st.N) (value m ^ value e) := by
  obtain ⟨v, e1, l1, v1⟩ := montOf_zmod ok m hm
  obtain ⟨x, e2, l2, v2⟩ := montExp_zmod ok v e l1 he _ v1
  obtain ⟨r, e3, l3, v3, le3, z3⟩ := montTo_spec ok x l2
  refine ⟨v, x, r, e1, e2, e3, l3, canon le3 ?_ ?_⟩
  · apply zmod_mod
    apply (isUnit_R ok).mul_right_cancel
    rw [v3, v2, Nat.cast_pow]
  · rw [z3, montExp_zero ok hn v e x l1 he e2, montOf_zero ok hn m v hm e1, pow_eq_zero_iff']

theorem exp32Path_spec {w : Nat} {st : MontState} (ok : MontOk w st) (hn : 1 < value st.N) (m : List U32) (hm : m.length = w) (ev : U32) :
    ∃ v x r, montOf (32 * w) st m = .ok v ∧ montExp32 (32 * w) st v ev = .ok x ∧ montTo (32 * w) st x = .ok r ∧ r.length = w ∧
      value r = canonN (value st.N) (value m ^ 65537) := by
  obtain ⟨v, e1, l1, v1⟩ := montOf_zmod ok m hm
  obtain ⟨x, e2, l2, v2⟩ := montExp32_zmod ok v ev l1 _ v1
  obtain ⟨r, e3, l3, v3, le3, z3⟩ := montTo_spec ok x l2
  refine ⟨v, x, r, e1, e2, e3, l3, canon le3 ?_ ?_⟩
  · apply zmod_mod
    apply (isUnit_R ok).mul_right_cancel
    rw [v3, v2, Nat.cast_pow]
  · rw [z3, montExp32_zero ok v x ev l1 e2, montOf_zero ok hn m v hm e1, pow_eq_zero_iff (by norm_num)]

/-- A usable public key. -/
structure PubOk (w : Nat) (k : RsaPub) (n e : Nat) : Prop where
  st : MontOk w k.s
  hN : value k.s.N = n
  hn : 1 < n
  le : k.e.length = w
  ve : value k.e = e

theorem rsaPubNew_spec (w : Nat) (hw : 0 < w) (n e : List U32) (hn : n.length = w) (he : e.length = w) (hodd : value n % 2 = 1) (h1 : 1 < value n) :
    ∃ k, rsaPubNew (32 * w) n e = .ok k ∧ k.n = n ∧ k.e = e ∧ PubOk w k (value n) (value e) := by
  obtain ⟨st, est, rfl, ok, _⟩ := montNew_spec w hw n hn hodd
  exact ⟨⟨st, st.N, e⟩, by rw [rsaPubNew, est, loop_ok_bind]; rfl, rfl, rfl, ⟨ok, rfl, h1, he, rfl⟩⟩

theorem rsaep_spec {w : Nat} {k : RsaPub} {n e : Nat} (ok : PubOk w k n e) (m : List U32) (hm : m.length = w) :
    ∃ r, rsaep (32 * w) k m = .ok r ∧ r.length = w ∧ value r = canonN n (value m ^ e) := by
  obtain ⟨st, rfl, hn, le, rfl⟩ := ok
  have hw := st.hw
  rw [rsaep]
  obtain ⟨l1, v1⟩ := bnOfU32_spec (32 * w) (by omega) 65537#32
  rw [bnN_mul32] at l1
  by_cases h : bnEq k.e (bnOfU32 (32 * w) 65537#32) = true
  · obtain ⟨v, x, r, e1, e2, e3, l, hv⟩ := exp32Path_spec st hn m hm 65537#32
    rw [if_pos h, e1, loop_ok_bind, e2, loop_ok_bind, e3]
    refine ⟨r, rfl, l, ?_⟩
    have he := (bnEq_iff _ _ (by omega)).mp h
    have : value k.e = 65537 := by rw [he, v1]; rfl
    rw [hv, this]
  · obtain ⟨v, x, r, e1, e2, e3, l, hv⟩ := expPath_spec st hn m k.e hm le
    rw [if_neg h, e1, loop_ok_bind, e2, loop_ok_bind, e3]
    exact ⟨r, rfl, l, hv⟩

/-- A usable private key: `actualN` is the bit length of the modulus. -/
structure PrivOk (w : Nat) (k : RsaPriv) (n d : Nat) : Prop where
  st : MontOk w k.s
  hN : value k.s.N = n
  hn : 1 < n
  ld : k.d.length = w
  vd : value k.d = d
  lo : 2 ^ (k.actualN - 1) ≤ n
  hi : n < 2 ^ k.actualN
  pos : 0 < k.actualN
  fit : k.actualN ≤ 32 * w

theorem bitLenLoop_spec (n : List U32) (h0 : value n ≠ 0) : ∀ k, k < 32 * n.length → value n < 2 ^ (k + 1) →
    ∃ a, bitLenLoop n k = .ok a ∧ 0 < a ∧ a ≤ k + 1 ∧ 2 ^ (a - 1) ≤ value n ∧ value n < 2 ^ a := by
  intro k
  induction k with
  | zero =>
    intro hk hlt
    have h1 : value n = 1 := by omega
    refine ⟨1, ?_, by omega, by omega, by simp; omega, by simpa using hlt⟩
    rw [bitLenLoop, bnBit_spec n 0 hk, loop_ok_bind, h1]; rfl
  | succ k ih =>
    intro hk hlt
    rw [bitLenLoop, bnBit_spec n (k + 1) hk, loop_ok_bind]
    by_cases hb : 2 ^ (k + 1) ≤ value n
    · have ht : (value n).testBit (k + 1) = true := by
        rw [Nat.testBit_eq_decide_div_mod_eq, decide_eq_true_eq, Nat.div_eq_of_lt_le (k := 1) (by omega) (by rw [show (1 + 1) * 2 ^ (k + 1) = 2 ^ (k + 1 + 1) by ring]; exact hlt)]
      rw [ht]
      exact ⟨k + 2, rfl, by omega, by omega, by simpa using hb, hlt⟩
    · have ht : (value n).testBit (k + 1) = false := Nat.testBit_lt_two_pow (by omega)
      rw [ht]
      obtain ⟨a, e, p, l, b1, b2⟩ := ih (by omega) (by omega)
      exact ⟨a, e, p, by omega, b1, b2⟩

theorem rsaPrivNew_spec (w : Nat) (hw : 0 < w) (n d : List U32) (hn : n.length = w) (hd : d.length = w) (hodd : value n % 2 = 1) (h1 : 1 < value n) :
    ∃ k, rsaPrivNew (32 * w) n d = .ok k ∧ k.n = n ∧ k.d = d ∧ PrivOk w k (value n) (value d) := by
  obtain ⟨st, est, rfl, ok, _⟩ := montNew_spec w hw n hn hodd
  have hlt := value_lt st.N
  rw [hn] at hlt
  obtain ⟨a, ea, ha, la, b1, b2⟩ := bitLenLoop_spec st.N (by omega) (32 * w - 1) (by omega) (by rw [show 32 * w - 1 + 1 = 32 * w by omega]; exact hlt)
  exact ⟨⟨st, st.N, d, a⟩, by rw [rsaPrivNew, est, loop_ok_bind, ea, loop_ok_bind]; rfl, rfl, rfl, ⟨ok, rfl, h1, hd, rfl, b1, b2, ha, by simp only; omega⟩⟩

theorem rsadp_spec {w : Nat} {k : RsaPriv} {n d : Nat} (ok : PrivOk w k n d) (m : List U32) (hm : m.length = w) :
    ∃ r, rsadp (32 * w) k m = .ok r ∧ r.length = w ∧ value r = canonN n (value m ^ d) := by
  obtain ⟨st, rfl, hn, ld, rfl, _, _, _, _⟩ := ok
  obtain ⟨v, x, r, e1, e2, e3, l, hv⟩ := expPath_spec st hn m k.d hm ld
  rw [rsadp, e1, loop_ok_bind, e2, loop_ok_bind, e3]
  exact ⟨r, rfl, l, hv⟩

/-! ### RSA is a permutation -/

theorem rsa_prime (p : Nat) (hp : p.Prime) (t k m : Nat) (ht : t = 1 + k * (p - 1)) : m ^ t ≡ m [MOD p] := by
  haveI := Fact.mk hp
  apply (ZMod.natCast_eq_natCast_iff _ _ _).mp
  push_cast
  by_cases h : (m : ZMod p) = 0
  · rw [h, zero_pow (by omega)]
  · rw [ht, pow_add, pow_one, Nat.mul_comm, pow_mul, ZMod.pow_card_sub_one_eq_one h, one_pow, mul_one]

theorem rsa_identity {n e d : Nat} (h : ValidPair n e d) (m : Nat) : m ^ (e * d) ≡ m [MOD n] := by
  obtain ⟨p, q, hp, hq, hpq, hp2, hq2, rfl, hed⟩ := h
  have hp3 : 3 ≤ p := by have := hp.two_le; omega
  have hq3 : 3 ≤ q := by have := hq.two_le; omega
  have hl : 2 ≤ Nat.lcm (p - 1) (q - 1) := le_trans (by omega : 2 ≤ p - 1) (Nat.le_of_dvd (Nat.lcm_pos (by omega) (by omega)) (Nat.dvd_lcm_left _ _))
  have h1 : 1 ≤ e * d := by
    by_contra hc
    have : e * d = 0 := by omega
    rw [this] at hed
    have := (Nat.modEq_zero_iff_dvd.mp hed.symm)
    have := Nat.le_of_dvd (by omega) this
    omega
  have hd := (Nat.modEq_iff_dvd' h1).mp hed.symm
  obtain ⟨a, ha⟩ := dvd_trans (Nat.dvd_lcm_left (p - 1) (q - 1)) hd
  obtain ⟨b, hb⟩ := dvd_trans (Nat.dvd_lcm_right (p - 1) (q - 1)) hd
  have m1 := rsa_prime p hp (e * d) a m (by rw [Nat.mul_comm a]; omega)
  have m2 := rsa_prime q hq (e * d) b m (by rw [Nat.mul_comm b]; omega)
  exact (Nat.modEq_and_modEq_iff_modEq_mul ((Nat.coprime_primes hp hq).mpr hpq)).mp ⟨m1, m2⟩

theorem validPair_pos {n e d : Nat} (h : ValidPair n e d) : e ≠ 0 ∧ d ≠ 0 ∧ 1 < n ∧ n % 2 = 1 := by
  have h2 := rsa_identity h 0
  obtain ⟨p, q, hp, hq, hpq, hp2, hq2, rfl, hed⟩ := h
  have hp3 : 3 ≤ p := by have := hp.two_le; omega
  have hq3 : 3 ≤ q := by have := hq.two_le; omega
  have h9 : 3 * 3 ≤ p * q := Nat.mul_le_mul hp3 hq3
  have hed0 : e * d ≠ 0 := by
    intro h0
    rw [h0, pow_zero] at h2
    have := (Nat.modEq_zero_iff_dvd.mp h2)
    have := Nat.le_of_dvd (by omega) this
    omega
  refine ⟨fun h => hed0 (by rw [h, Nat.zero_mul]), fun h => hed0 (by rw [h, Nat.mul_zero]), by omega, ?_⟩
  rw [Nat.mul_mod, Nat.odd_iff.mp (hp.odd_of_ne_two hp2), Nat.odd_iff.mp (hq.odd_of_ne_two hq2)]

theorem validPair_symm {n e d : Nat} (h : ValidPair n e d) : ValidPair n d e := by
  obtain ⟨p, q, hp, hq, hpq, hp2, hq2, rfl, hed⟩ := h
  exact ⟨p, q, hp, hq, hpq, hp2, hq2, rfl, by rw [Nat.mul_comm]; exact hed⟩

/-- Raising to `e` and then to `d`, with the library's idea of a residue, gives back every `m < n`. -/
theorem canonN_roundtrip {n e d : Nat} (h : ValidPair n e d) {m : Nat} (hm : m < n) : canonN n (canonN n (m ^ e) ^ d) = m := by
  obtain ⟨he, hd, hn, _⟩ := validPair_pos h
  rcases Nat.eq_zero_or_pos m with rfl | hpos
  · rw [zero_pow he, canonN_of_lt hm, zero_pow hd, canonN_of_lt hm]
  · have h1 : canonN n (m ^ e) ^ d % n = m := by
      rw [Nat.pow_mod, canonN_mod, ← Nat.pow_mod, ← pow_mul]
      have := rsa_identity h m
      rw [Nat.ModEq, Nat.mod_eq_of_lt hm] at this
      exact this
    rw [canonN_of_mod (by omega), h1]

end Verif.Proof
