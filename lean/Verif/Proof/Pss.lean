import Verif.Proof.Rsa

namespace Verif.Proof
open Verif.Model Verif.Spec

/-! ### octet strings and numbers -/

theorem leNat_take (v : List Byte) (k : Nat) : leNat (v.take k) = leNat v % 2 ^ (8 * k) := by
  rcases Nat.lt_or_ge v.length k with h | h
  · rw [List.take_of_length_le (by omega), Nat.mod_eq_of_lt]
    exact lt_of_lt_of_le (leNat_lt v) (Nat.pow_le_pow_right (by decide) (by omega))
  · conv_rhs => rw [← List.take_append_drop k v]
    rw [leNat_append, List.length_take, Nat.min_eq_left h, Nat.add_mul_mod_self_left, Nat.mod_eq_of_lt]
    have := leNat_lt (v.take k)
    rwa [List.length_take, Nat.min_eq_left h] at this

theorem resize_length (v : List Byte) (k : Nat) : (resize v k).length = k := by
  simp [resize]; omega

theorem leNat_resize (v : List Byte) (k : Nat) : leNat (resize v k) = leNat v % 2 ^ (8 * k) := by
  rw [resize, leNat_append, leNat_replicate_zero, Nat.mul_zero, Nat.add_zero, leNat_take]

theorem i2osp_succ (n k : Nat) : i2osp n (k + 1) = i2osp (n / 256) k ++ [BitVec.ofNat 8 n] := by
  rw [i2osp, i2osp, List.range_succ, List.map_append]
  congr 1
  · apply List.map_congr_left
    intro i hi
    have hi := List.mem_range.mp hi
    rw [Nat.div_div_eq_div_mul, ← pow_succ']
    congr 3; omega
  · simp

theorem leNat_i2osp (n k : Nat) : leNat (i2osp n k).reverse = n % 2 ^ (8 * k) := by
  induction k generalizing n with
  | zero => simp [i2osp, leNat, Nat.mod_one]
  | succ k ih =>
    rw [i2osp_succ, List.reverse_append, List.reverse_singleton, List.singleton_append, leNat, ih, BitVec.toNat_ofNat,
      show 8 * (k + 1) = 8 + 8 * k by ring, pow_add, Nat.mod_mul]; rfl

theorem beNat_i2osp (n k : Nat) : beNat (i2osp n k) = n % 2 ^ (8 * k) := leNat_i2osp n k

theorem i2osp_beNat (l : List Byte) : i2osp (beNat l) l.length = l := by
  have h : (i2osp (beNat l) l.length).reverse = l.reverse := by
    apply leNat_inj
    · simp [i2osp_length]
    · have h1 := leNat_lt l.reverse
      rw [List.length_reverse] at h1
      rw [leNat_i2osp, beNat, Nat.mod_eq_of_lt h1]
  exact List.reverse_injective h

theorem beNat_lt (l : List Byte) : beNat l < 2 ^ (8 * l.length) := by
  have := leNat_lt l.reverse
  rwa [List.length_reverse] at this

theorem beNat_inj {a b : List Byte} (hl : a.length = b.length) (h : beNat a = beNat b) : a = b := by
  rw [← i2osp_beNat a, ← i2osp_beNat b, h, hl]

/-- `as_bytes`, `resize`, `reverse` is I2OSP. -/
theorem asBytes_i2osp (r : List U32) (k : Nat) : (resize (bnAsBytes r) k).reverse = i2osp (value r) k := by
  apply beNat_inj
  · rw [List.length_reverse, resize_length, i2osp_length]
  · rw [beNat_i2osp, beNat, List.reverse_reverse, leNat_resize, (bnAsBytes_spec r).2]

theorem bnOfBytes_rev (w : Nat) (l : List Byte) (h : l.length ≤ 4 * w) :
    (bnOfBytes (32 * w) l.reverse).length = w ∧ value (bnOfBytes (32 * w) l.reverse) = beNat l := by
  obtain ⟨h1, h2⟩ := bnOfBytes_spec (32 * w) l.reverse
  rw [bnN_mul32] at h1 h2
  exact ⟨h1, by rw [h2, List.take_of_length_le (by simpa using h), beNat]⟩

theorem bnOfBytes_fwd (w : Nat) (l : List Byte) (h : l.length ≤ 4 * w) :
    (bnOfBytes (32 * w) l).length = w ∧ value (bnOfBytes (32 * w) l) = leNat l := by
  obtain ⟨h1, h2⟩ := bnOfBytes_spec (32 * w) l
  rw [bnN_mul32] at h1 h2
  exact ⟨h1, by rw [h2, List.take_of_length_le h]⟩

theorem beNat_append (a b : List Byte) : beNat (a ++ b) = beNat a * 2 ^ (8 * b.length) + beNat b := by
  rw [beNat, List.reverse_append, leNat_append, List.length_reverse, beNat, beNat]; ring

theorem beNat_cons (a : Byte) (l : List Byte) : beNat (a :: l) = a.toNat * 2 ^ (8 * l.length) + beNat l := by
  rw [show a :: l = [a] ++ l by rfl, beNat_append]; simp [beNat, leNat]

/-! ### bytes -/

theorem and_7f (b : Byte) : b &&& 0x7F#8 = BitVec.ofNat 8 (b.toNat % 2 ^ 7) := by
  apply BitVec.eq_of_toNat_eq
  rw [BitVec.toNat_and, show BitVec.toNat 0x7F#8 = 2 ^ 7 - 1 by rfl, Nat.and_two_pow_sub_one_eq_mod, BitVec.toNat_ofNat]
  have := Nat.mod_lt b.toNat (show 2 ^ 7 > 0 by decide)
  omega

theorem clearLeft_one (b : Byte) (t : List Byte) : clearLeft 1 (b :: t) = (b &&& 0x7F#8) :: t := by
  rw [clearLeft, and_7f]

theorem mask_xor (a m t : Byte) : (((a ^^^ m) &&& t) ^^^ m) &&& t = a &&& t := by
  apply BitVec.eq_of_getLsbD_eq
  intro i _
  simp only [BitVec.getLsbD_and, BitVec.getLsbD_xor]
  cases a.getLsbD i <;> cases m.getLsbD i <;> cases t.getLsbD i <;> rfl

theorem and_and_self (a t : Byte) : a &&& t &&& t = a &&& t := by
  rw [BitVec.and_assoc, BitVec.and_self]

theorem byte_mask_iff {x d m t : Byte} (hd : d &&& t = d) : x = (d ^^^ m) &&& t ↔ (x &&& t = x ∧ (x ^^^ m) &&& t = d) := by
  constructor
  · rintro rfl
    exact ⟨and_and_self _ _, by rw [mask_xor, hd]⟩
  · rintro ⟨h1, h2⟩
    rw [← h2, mask_xor, h1]

theorem xorOctets_cancel : ∀ (x m d : List Byte), x.length = m.length → d.length = m.length → (x = xorOctets d m ↔ xorOctets x m = d)
  | [], [], [], _, _ => by simp [xorOctets]
  | x :: xs, m :: ms, d :: ds, h1, h2 => by
    have ih := xorOctets_cancel xs ms ds (by simpa using h1) (by simpa using h2)
    simp only [xorOctets, List.zipWith_cons_cons, List.cons.injEq] at ih ⊢
    rw [ih]
    apply and_congr_left
    intro _
    constructor
    · rintro rfl; rw [BitVec.xor_assoc, BitVec.xor_self, BitVec.xor_zero]
    · rintro rfl; rw [BitVec.xor_assoc, BitVec.xor_self, BitVec.xor_zero]

theorem xorOctets_length (a b : List Byte) (h : a.length = b.length) : (xorOctets a b).length = a.length := by
  simp [xorOctets]; omega

/-- unmasking is masking backwards, with the top bit cleared on both sides -/
theorem masked_iff (X M D : List Byte) (hX : X.length = M.length) (hD : D.length = M.length) (hc : clearLeft 1 D = D) :
    X = clearLeft 1 (xorOctets D M) ↔ (clearLeft 1 X = X ∧ clearLeft 1 (xorOctets X M) = D) := by
  match X, M, D, hX, hD with
  | [], [], [], _, _ => simp [xorOctets, clearLeft]
  | x :: xs, m :: ms, d :: ds, h1, h2 =>
    have ht := xorOctets_cancel xs ms ds (by simpa using h1) (by simpa using h2)
    simp only [xorOctets, List.zipWith_cons_cons] at ht ⊢
    rw [clearLeft_one] at hc
    have hd := (List.cons.inj hc).1
    simp only [clearLeft_one, List.cons.injEq, and_true]
    rw [ht, byte_mask_iff hd, and_assoc]

/-! ### PSS encoding -/

theorem getD_zipWith_xor (a b : List Byte) (h : a.length = b.length) (i : Nat) :
    (List.zipWith (· ^^^ ·) a b).getD i 0#8 = a.getD i 0#8 ^^^ b.getD i 0#8 := by
  rcases Nat.lt_or_ge i a.length with hi | hi
  · rw [List.getD_eq_getElem _ _ (by simp; omega), List.getD_eq_getElem _ _ hi, List.getD_eq_getElem _ _ (by omega), List.getElem_zipWith]
  · rw [List.getD_eq_default _ _ (by simp; omega), List.getD_eq_default _ _ hi, List.getD_eq_default _ _ (by omega)]; rfl

/-- The data block of the encoding: zeros, one, salt. -/
def pssDB (L : Nat) (salt : List Byte) : List Byte := List.replicate (L - salt.length - 1) 0#8 ++ [1#8] ++ salt

theorem pssDB_length (L : Nat) (salt : List Byte) (h : salt.length + 1 ≤ L) : (pssDB L salt).length = L := by
  simp [pssDB]; omega

theorem pssDB_getD (L : Nat) (salt : List Byte) (h : salt.length + 1 ≤ L) (j : Nat) :
    (pssDB L salt).getD j 0#8 = if j = L - salt.length - 1 then 1#8 else if L - salt.length ≤ j then salt.getD (j - (L - salt.length)) 0#8 else 0#8 := by
  unfold pssDB
  rcases Nat.lt_trichotomy j (L - salt.length - 1) with h1 | h1 | h1
  · rw [if_neg (by omega), if_neg (by omega), List.append_assoc, List.getD_append _ _ _ _ (by simpa using h1), List.getD_replicate _ (by omega)]
  · rw [if_pos h1, List.append_assoc, List.getD_append_right _ _ _ _ (by simp; omega)]
    simp [h1]
  · rw [if_neg (by omega), if_pos (by omega), List.getD_append_right _ _ _ _ (by simp; omega)]
    congr 1; simp; omega

theorem generatePss_spec (c : HashClass) (data salt : List Byte) (k : Nat) (hk : hashsize c + salt.length + 2 ≤ k) (hk2 : k ≤ 2 ^ 32)
    (hd : data.length + salt.length + 8 < 2 ^ 61) :
    ∃ mask, mgf c (digest c (List.replicate 8 0#8 ++ data ++ salt)) (k - hashsize c - 1) = .ok mask ∧ mask.length = k - hashsize c - 1 ∧
      generatePss c data salt k = .ok (xorOctets (pssDB (k - hashsize c - 1) salt) mask ++ digest c (List.replicate 8 0#8 ++ data ++ salt) ++ [0xbc#8]) := by
  set L := k - hashsize c - 1 with hL
  have hH := hash_three c (List.replicate 8 0#8) data salt (by simp; omega)
  set H := digest c (List.replicate 8 0#8 ++ data ++ salt) with hHdef
  obtain ⟨mask, e1, l1⟩ := mgf_length c H L (by omega)
  refine ⟨mask, e1, l1, ?_⟩
  rw [generatePss]
  dsimp only
  rw [hH, szSub_eq (b := hashsize c) (by omega) (by omega), szSub_eq (by omega) (by omega), ← hL, e1, loop_ok_bind, l1,
    szSub_eq (b := salt.length) (by omega) (by omega), szSub_eq (by omega) (by omega), rd_ok_getD 0#8 (by omega), loop_ok_bind, wr_ok _ (by omega), loop_ok_bind]
  obtain ⟨m, e2, l2, v2⟩ := loop_inv (n := salt.length) (s := mask.set (L - salt.length - 1) (mask.getD (L - salt.length - 1) 0#8 ^^^ 0x01#8))
    (body := fun m n => do
      let j := (szSub m.length salt.length + n) % 2 ^ 64
      let a ← rd m j
      let b ← rd salt n
      wr m j (a ^^^ b))
    (fun n (m : List Byte) => m.length = L ∧ ∀ j, m.getD j 0#8 = mask.getD j 0#8 ^^^ (if j = L - salt.length - 1 then 1#8
      else if L - salt.length ≤ j ∧ j < L - salt.length + n then salt.getD (j - (L - salt.length)) 0#8 else 0#8))
    (by
      refine ⟨by simp [l1], fun j => ?_⟩
      rw [getD_set_eq _ _ _ _ _ (by omega)]
      by_cases hj : j = L - salt.length - 1
      · rw [if_pos hj.symm, if_pos hj, hj]
      · rw [if_neg (by omega), if_neg hj, if_neg (by omega), BitVec.xor_zero])
    (by
      rintro n hn m ⟨hl, hv⟩
      dsimp only
      rw [hl, szSub_eq (by omega) (by omega), Nat.mod_eq_of_lt (by omega), rd_ok_getD 0#8 (by omega), loop_ok_bind, rd_ok_getD 0#8 hn, loop_ok_bind, wr_ok _ (by omega)]
      refine ⟨_, rfl, by simp [hl], fun j => ?_⟩
      rw [getD_set_eq _ _ _ _ _ (by omega)]
      by_cases hj : j = L - salt.length + n
      · rw [if_pos hj.symm, hv, if_neg (by omega), if_neg (by omega), if_neg (by omega), if_pos (by omega), hj, BitVec.xor_zero]
        congr 2; omega
      · rw [if_neg (fun h => hj h.symm), hv]
        congr 1
        by_cases h1 : j = L - salt.length - 1
        · rw [if_pos h1, if_pos h1]
        · rw [if_neg h1, if_neg h1]
          by_cases h2 : L - salt.length ≤ j ∧ j < L - salt.length + n
          · rw [if_pos h2, if_pos (by omega)]
          · rw [if_neg h2, if_neg (by omega)])
  rw [e2, loop_ok_bind]
  have hm : m = xorOctets (pssDB L salt) mask := by
    have hDl := pssDB_length L salt (by omega)
    refine list_ext_getD 0#8 (by rw [l2, xorOctets_length _ _ (by omega), hDl]) (fun j _ => ?_)
    rw [v2, xorOctets, getD_zipWith_xor _ _ (by omega), pssDB_getD L salt (by omega), BitVec.xor_comm]
    congr 1
    by_cases h1 : j = L - salt.length - 1
    · rw [if_pos h1, if_pos h1]
    · rw [if_neg h1, if_neg h1]
      by_cases h2 : L - salt.length ≤ j
      · rw [if_pos h2]
        by_cases h3 : j < L
        · rw [if_pos ⟨h2, by omega⟩]
        · rw [if_neg (by omega), List.getD_eq_default _ _ (by omega)]
      · rw [if_neg h2, if_neg (by omega)]
  rw [hm]; rfl

theorem getSalt_spec (c : HashClass) (sLen : Nat) (EM : List Byte) (hk : hashsize c + sLen + 1 ≤ EM.length) (hk2 : EM.length ≤ 2 ^ 32) :
    ∃ mask, mgf c ((EM.drop (EM.length - hashsize c - 1)).take (hashsize c)) (EM.length - hashsize c - 1) = .ok mask ∧
      mask.length = EM.length - hashsize c - 1 ∧
      getSalt c sLen EM = .ok ((xorOctets (EM.take (EM.length - hashsize c - 1)) mask).drop (EM.length - hashsize c - 1 - sLen)) := by
  set k := EM.length with hkdef
  set L := k - hashsize c - 1 with hL
  obtain ⟨mask, e1, l1⟩ := mgf_length c ((EM.drop L).take (hashsize c)) L (by omega)
  refine ⟨mask, e1, l1, ?_⟩
  rw [getSalt, if_neg (by omega)]
  dsimp only
  rw [← hkdef, szSub_eq (b := hashsize c) (by omega) (by omega), szSub_eq (by omega) (by omega), ← hL, e1, loop_ok_bind, l1, szSub_eq (by omega) (by omega)]
  obtain ⟨s, e2, h2⟩ := loop_inv (n := L - (L - sLen)) (s := ([] : List Byte)) (body := fun salt i => do
      let a ← rd EM (L - sLen + i)
      let b ← rd mask (L - sLen + i)
      return salt ++ [a ^^^ b])
    (fun n (s : List Byte) => s = (List.range n).map (fun i => EM.getD (L - sLen + i) 0#8 ^^^ mask.getD (L - sLen + i) 0#8))
    (by simp)
    (by
      rintro n hn s rfl
      rw [rd_ok_getD 0#8 (by omega), loop_ok_bind, rd_ok_getD 0#8 (by omega), loop_ok_bind]
      exact ⟨_, rfl, by rw [List.range_succ, List.map_append]; rfl⟩)
  rw [e2, h2]
  congr 1
  have hx : (xorOctets (EM.take L) mask).length = L := by
    rw [xorOctets_length _ _ (by simp; omega)]; simp; omega
  apply List.ext_getElem
  · simp [hx]
  · intro i h3 h4
    simp only [List.getElem_map, List.getElem_range, List.getElem_drop, xorOctets, List.getElem_zipWith, List.getElem_take]
    simp only [List.length_map, List.length_range] at h3
    rw [List.getD_eq_getElem _ _ (by omega), List.getD_eq_getElem _ _ (by omega)]

theorem clear0 (b : Byte) (t : List Byte) : (do let a ← rd (b :: t) 0; wr (b :: t) 0 (a &&& 0x7F#8)) = .ok (clearLeft 1 (b :: t)) := by
  rw [clearLeft_one]; rfl

theorem clearLeft_length (z : Nat) (l : List Byte) : (clearLeft z l).length = l.length := by
  cases l <;> rfl

theorem clearLeft_append (a b : List Byte) (h : 0 < a.length) : clearLeft 1 (a ++ b) = clearLeft 1 a ++ b := by
  match a, h with
  | x :: xs, _ => rw [List.cons_append, clearLeft_one, clearLeft_one, List.cons_append]

theorem clearLeft_drop (l : List Byte) (n : Nat) (h : 0 < n) : (clearLeft 1 l).drop n = l.drop n := by
  match l, n, h with
  | [], _, _ => rfl
  | x :: xs, n + 1, _ => rw [clearLeft_one]; rfl

theorem clearLeft_pssDB (L : Nat) (salt : List Byte) : clearLeft 1 (pssDB L salt) = pssDB L salt := by
  unfold pssDB
  cases L - salt.length - 1 with
  | zero => simp only [List.replicate_zero, List.nil_append, List.singleton_append, clearLeft_one]; rfl
  | succ n => simp only [List.replicate_succ, List.cons_append, clearLeft_one]; rfl

/-- What `validatePssSignature` does after the RSA operation. -/
def pssCheck (c : HashClass) (sLen : Nat) (message EM : List Byte) : Out Bool := do
  let salt ← getSalt c sLen EM
  let pssdata ← generatePss c (hashOf c message) salt EM.length
  let a ← rd pssdata 0
  let pssdata ← wr pssdata 0 (a &&& 0x7F#8)
  return decide (EM = pssdata)

theorem validatePss_eq (N : Nat) (k : RsaPub) (c : HashClass) (sLen : Nat) (message sig : List Byte) :
    validatePss N k c sLen message sig = (do
      let r ← rsaep N k (bnOfBytes N sig.reverse)
      pssCheck c sLen message (resize (bnAsBytes r) sig.length).reverse) := rfl

theorem split_em (EM : List Byte) (L h : Nat) (hl : EM.length = L + h + 1) :
    EM = EM.take L ++ (EM.drop L).take h ++ [EM.getLast (List.ne_nil_of_length_eq_add_one hl)] := by
  have hne : EM ≠ [] := List.ne_nil_of_length_eq_add_one hl
  conv_lhs => rw [← List.dropLast_append_getLast hne]
  congr 1
  rw [← List.take_append_drop L EM.dropLast]
  rw [List.dropLast_eq_take, List.take_take, Nat.min_eq_left (by omega), List.drop_take, hl]
  congr 2; omega

/-- The check is EMSA-PSS-VERIFY for a modulus of `8 * EM.length` bits and a salt as long as the hash or any shorter one that fits. -/
theorem pssCheck_spec (c : HashClass) (sLen : Nat) (message EM : List Byte) (hm : message.length < 2 ^ 61) (hk : hashsize c + sLen + 2 ≤ EM.length)
    (hk2 : EM.length ≤ 2 ^ 32) :
    pssCheck c sLen message EM = .ok (emsaPssVerify (digest c) (hashsize c) sLen message EM (8 * EM.length - 1)) := by
  obtain ⟨mask, em, lm, es⟩ := getSalt_spec c sLen EM (by omega) hk2
  obtain ⟨mask', em', lm', sp⟩ := mgf_spec c ((EM.drop (EM.length - hashsize c - 1)).take (hashsize c)) (EM.length - hashsize c - 1) (by omega)
    (by simp; omega)
  obtain rfl : mask' = mask := Except.ok.inj (em'.symm.trans em)
  set k := EM.length with hkdef
  set L := k - hashsize c - 1 with hL
  set h := (EM.drop L).take (hashsize c) with hh
  set X := EM.take L with hX
  have lX : X.length = L := by rw [hX]; simp; omega
  have lXm : (xorOctets X mask').length = L := by rw [xorOctets_length _ _ (by omega), lX]
  set salt := (xorOctets X mask').drop (L - sLen) with hsalt
  have lsalt : salt.length = sLen := by rw [hsalt, List.length_drop, lXm]; omega
  have hh2 := hashsize_le c
  obtain ⟨mask2, em2, lm2, eg⟩ := generatePss_spec c (hashOf c message) salt k (by omega) hk2 (by rw [hashOf_length]; omega)
  rw [← hL] at em2 lm2 eg
  set H' := digest c (List.replicate 8 0#8 ++ hashOf c message ++ salt) with hH'
  have lD := pssDB_length L salt (by omega)
  have lDm : (xorOctets (pssDB L salt) mask2).length = L := by rw [xorOctets_length _ _ (by omega), lD]
  have lh : h.length = hashsize c := by rw [hh]; simp; omega
  have lH' : H'.length = hashsize c := by
    rw [hH']; exact digest_length c _ (by simp [hashOf_length]; omega)
  -- the model
  have e1 : pssCheck c sLen message EM = .ok (decide (EM = clearLeft 1 (xorOctets (pssDB L salt) mask2) ++ H' ++ [0xbc#8])) := by
    rw [pssCheck, es, loop_ok_bind, ← hkdef, eg, loop_ok_bind]
    match hx : xorOctets (pssDB L salt) mask2, lDm with
    | [], h0 => simp at h0; omega
    | b :: t, _ =>
      rw [clearLeft_one]; rfl
  rw [e1]
  refine congrArg Except.ok ?_
  have hsplit := split_em EM L (hashsize c) (by omega)
  rw [← hX, ← hh] at hsplit
  set last := EM.getLast (List.ne_nil_of_length_eq_add_one (show EM.length = L + hashsize c + 1 by omega)) with hlast
  have hiff : (EM = clearLeft 1 (xorOctets (pssDB L salt) mask2) ++ H' ++ [0xbc#8]) ↔
      (X = clearLeft 1 (xorOctets (pssDB L salt) mask2) ∧ h = H' ∧ last = 0xbc#8) := by
    conv_lhs => rw [hsplit]
    constructor
    · intro he
      have h1 := List.append_inj he (by simp only [List.length_append, lX, lh, clearLeft_length, lDm, lH'])
      have h2 := List.append_inj h1.1 (by rw [lX, clearLeft_length, lDm])
      exact ⟨h2.1, h2.2, by simpa using h1.2⟩
    · rintro ⟨a, b, d⟩; rw [← a, b, d]
  have hsLen : (8 * k - 1 + 7) / 8 = k := by omega
  have hz : 8 * k - (8 * k - 1) = 1 := by omega
  have hgl : EM.getLast? = some last := by rw [List.getLast?_eq_getLast_of_ne_nil]
  unfold emsaPssVerify
  dsimp only
  rw [hsLen, if_neg (by omega), if_neg (by simp [hkdef]), hz, ← hL, ← hX, ← hh, sp]
  dsimp only
  rw [← hashOf_eq c message hm]
  have hDBdrop : (clearLeft 1 (xorOctets X mask')).drop (k - hashsize c - sLen - 1) = salt := by
    rw [clearLeft_drop _ _ (by omega), hsalt, show k - hashsize c - sLen - 1 = L - sLen by omega]
  rw [hDBdrop, ← hH']
  by_cases c1 : last = 0xbc#8
  swap
  · rw [if_pos (by rw [hgl]; simpa using c1), decide_eq_false]
    rw [hiff]; exact fun h => c1 h.2.2
  rw [if_neg (by rw [hgl]; simpa using c1)]
  by_cases c2 : clearLeft 1 X = X
  swap
  · rw [if_pos c2, decide_eq_false]
    rw [hiff]
    rintro ⟨h1, _, _⟩
    exact c2 ((masked_iff X mask2 (pssDB L salt) (by omega) (by omega) (clearLeft_pssDB L salt)).mp h1).1
  rw [if_neg (by simpa using c2)]
  by_cases c3 : h = H'
  swap
  · rw [decide_eq_false (by rw [hiff]; exact fun h => c3 h.2.1)]
    split
    · rfl
    · rw [decide_eq_false c3]
  -- the masks agree
  obtain rfl : mask2 = mask' := by
    rw [← c3] at em2
    exact Except.ok.inj (em2.symm.trans em)
  have hDB : (clearLeft 1 (xorOctets X mask2) = pssDB L salt) ↔
      (clearLeft 1 (xorOctets X mask2)).take (k - hashsize c - sLen - 1) = List.replicate (k - hashsize c - sLen - 2) 0#8 ++ [1#8] := by
    conv_lhs => rw [← List.take_append_drop (k - hashsize c - sLen - 1) (clearLeft 1 (xorOctets X mask2)), hDBdrop]
    unfold pssDB
    rw [lsalt, List.append_left_inj, show L - sLen - 1 = k - hashsize c - sLen - 2 by omega]
  have key : (EM = clearLeft 1 (xorOctets (pssDB L salt) mask2) ++ H' ++ [0xbc#8]) ↔
      (clearLeft 1 (xorOctets X mask2)).take (k - hashsize c - sLen - 1) = List.replicate (k - hashsize c - sLen - 2) 0#8 ++ [1#8] := by
    rw [hiff, masked_iff X mask2 (pssDB L salt) (by omega) (by omega) (clearLeft_pssDB L salt), hDB]
    exact ⟨fun h => h.1.2, fun h => ⟨⟨c2, h⟩, c3, c1⟩⟩
  by_cases c4 : (clearLeft 1 (xorOctets X mask2)).take (k - hashsize c - sLen - 1) = List.replicate (k - hashsize c - sLen - 2) 0#8 ++ [1#8]
  · rw [if_neg (by simpa using c4), decide_eq_true (key.mpr c4), decide_eq_true c3]
  · rw [if_pos c4, decide_eq_false (fun h => c4 (key.mp h))]

end Verif.Proof

namespace Verif.Proof
open Verif.Model Verif.Spec

/-! ### signing -/

theorem bitlen_unique {n a b : Nat} (ha : 2 ^ (a - 1) ≤ n) (ha' : n < 2 ^ a) (hb : 2 ^ (b - 1) ≤ n) (hb' : n < 2 ^ b) (pa : 0 < a) (pb : 0 < b) : a = b := by
  have h1 : a - 1 < b := (Nat.pow_lt_pow_iff_right (a := 2) (by decide)).mp (lt_of_le_of_lt ha hb')
  have h2 : b - 1 < a := (Nat.pow_lt_pow_iff_right (a := 2) (by decide)).mp (lt_of_le_of_lt hb ha')
  omega

theorem clear_lt (l : List Byte) (hl : 0 < l.length) (h : clearLeft 1 l = l) : beNat l < 2 ^ (8 * l.length - 1) := by
  match l, hl with
  | b :: t, _ =>
    rw [clearLeft_one, and_7f] at h
    have hb := congrArg BitVec.toNat (List.cons.inj h).1
    rw [BitVec.toNat_ofNat] at hb
    have hb2 : b.toNat ≤ 127 := by omega
    have ht := beNat_lt t
    rw [beNat_cons, List.length_cons, show 8 * (t.length + 1) - 1 = 8 * t.length + 7 by omega, pow_add]
    have := Nat.mul_le_mul_right (2 ^ (8 * t.length)) hb2
    omega

theorem clear_ge (l : List Byte) (hl : 0 < l.length) (h : 2 ^ (8 * l.length - 1) ≤ beNat l) : clearLeft 1 l ≠ l := by
  intro hc
  have := clear_lt l hl hc
  omega

theorem clearLeft_idem (l : List Byte) : clearLeft 1 (clearLeft 1 l) = clearLeft 1 l := by
  cases l with
  | nil => rfl
  | cons b t => rw [clearLeft_one, clearLeft_one, and_and_self]

/-- The encoded message of `signPssSignature`. -/
theorem pssEncoded (c : HashClass) (data salt : List Byte) (k : Nat) (hk : hashsize c + salt.length + 2 ≤ k) (hk2 : k ≤ 2 ^ 32)
    (hd : data.length + salt.length + 8 < 2 ^ 61) :
    ∃ mask, mgf c (digest c (List.replicate 8 0#8 ++ data ++ salt)) (k - hashsize c - 1) = .ok mask ∧ mask.length = k - hashsize c - 1 ∧
      (do let p ← generatePss c data salt k
          let a ← rd p 0
          wr p 0 (a &&& 0x7F#8)) =
        .ok (clearLeft 1 (xorOctets (pssDB (k - hashsize c - 1) salt) mask) ++ digest c (List.replicate 8 0#8 ++ data ++ salt) ++ [0xbc#8]) := by
  obtain ⟨mask, h1, h2, h3⟩ := generatePss_spec c data salt k hk hk2 hd
  refine ⟨mask, h1, h2, ?_⟩
  rw [h3, loop_ok_bind]
  have lD := pssDB_length (k - hashsize c - 1) salt (by omega)
  have lDm : (xorOctets (pssDB (k - hashsize c - 1) salt) mask).length = k - hashsize c - 1 := by rw [xorOctets_length _ _ (by omega), lD]
  match hx : xorOctets (pssDB (k - hashsize c - 1) salt) mask, lDm with
  | [], h0 => simp at h0; omega
  | b :: t, _ => rw [clearLeft_one]; rfl

theorem signPss_eq (N : Nat) (k : RsaPriv) (c : HashClass) (message salt : List Byte) :
    signPss N k c message salt = (do
      let p ← (do let p ← generatePss c message salt (k.actualN / 8)
                  let a ← rd p 0
                  wr p 0 (a &&& 0x7F#8))
      let r ← rsadp N k (bnOfBytes N p.reverse)
      return (resize (bnAsBytes r) (k.actualN / 8)).reverse) := by
  simp only [signPss, bind_assoc]

/-- The check applied to an encoding made from the hash `mh` and a salt of the expected length: only a hash value can differ. -/
theorem pssCheck_encoded (c : HashClass) (message mh salt mask : List Byte) (k : Nat) (hm : message.length < 2 ^ 61)
    (hk : hashsize c + salt.length + 2 ≤ k) (hk2 : k ≤ 2 ^ 32) (hd : mh.length + salt.length + 8 < 2 ^ 61)
    (h1 : mgf c (digest c (List.replicate 8 0#8 ++ mh ++ salt)) (k - hashsize c - 1) = .ok mask) (h2 : mask.length = k - hashsize c - 1) :
    ∃ b, pssCheck c salt.length message
      (clearLeft 1 (xorOctets (pssDB (k - hashsize c - 1) salt) mask) ++ digest c (List.replicate 8 0#8 ++ mh ++ salt) ++ [0xbc#8]) = .ok b ∧
      (b = true ↔ digest c (List.replicate 8 0#8 ++ mh ++ salt) = digest c (List.replicate 8 0#8 ++ digest c message ++ salt)) := by
  set L := k - hashsize c - 1 with hL
  set H := digest c (List.replicate 8 0#8 ++ mh ++ salt) with hH
  have lH : H.length = hashsize c := by rw [hH]; exact digest_length c _ (by simp; omega)
  have lD := pssDB_length L salt (by omega)
  have lDm : (xorOctets (pssDB L salt) mask).length = L := by rw [xorOctets_length _ _ (by omega), lD]
  set X := clearLeft 1 (xorOctets (pssDB L salt) mask) with hX
  have lX : X.length = L := by rw [hX, clearLeft_length, lDm]
  set EM := X ++ H ++ [0xbc#8] with hEM
  have lEM : EM.length = k := by rw [hEM]; simp [lX, lH]; omega
  have eX : EM.take L = X := by rw [hEM, List.append_assoc, List.take_append_of_le_length (by omega), List.take_of_length_le (by omega)]
  have eH : (EM.drop L).take (hashsize c) = H := by
    rw [hEM, List.append_assoc, ← lX, List.drop_left, ← lH, List.take_left]
  obtain ⟨mask', m1, m2, es⟩ := getSalt_spec c salt.length EM (by omega) (by omega)
  rw [lEM, ← hL, eX] at es
  rw [lEM, ← hL, eH] at m1
  obtain rfl : mask' = mask := Except.ok.inj (m1.symm.trans h1)
  have hun : clearLeft 1 (xorOctets X mask') = pssDB L salt :=
    ((masked_iff X mask' (pssDB L salt) (by omega) (by omega) (clearLeft_pssDB L salt)).mp hX).2
  have hsalt : (xorOctets X mask').drop (L - salt.length) = salt := by
    rw [← clearLeft_drop _ _ (by omega), hun]
    unfold pssDB
    have : L - salt.length = (List.replicate (L - salt.length - 1) 0#8 ++ [1#8]).length := by simp; omega
    exact List.drop_left' this.symm
  rw [hsalt] at es
  have hh2 := hashsize_le c
  obtain ⟨mask2, e2, l2, eg⟩ := pssEncoded c (hashOf c message) salt k hk hk2 (by rw [hashOf_length]; omega)
  rw [hashOf_eq c message hm, ← hL] at e2 eg
  rw [← hL] at l2
  set H' := digest c (List.replicate 8 0#8 ++ digest c message ++ salt) with hH'
  have lH' : H'.length = hashsize c := by
    rw [hH']; exact digest_length c _ (by rw [← hashOf_eq c message hm]; simp [hashOf_length]; omega)
  have lDm2 : (xorOctets (pssDB L salt) mask2).length = L := by rw [xorOctets_length _ _ (by omega), lD]
  have hp : pssCheck c salt.length message EM = .ok (decide (EM = clearLeft 1 (xorOctets (pssDB L salt) mask2) ++ H' ++ [0xbc#8])) := by
    have : pssCheck c salt.length message EM = (do
        let salt ← getSalt c salt.length EM
        let p ← (do let p ← generatePss c (hashOf c message) salt EM.length
                    let a ← rd p 0
                    wr p 0 (a &&& 0x7F#8))
        return decide (EM = p)) := by simp only [pssCheck, bind_assoc]
    rw [this, es, loop_ok_bind, lEM, hashOf_eq c message hm, eg, loop_ok_bind]; rfl
  refine ⟨_, hp, ?_⟩
  rw [decide_eq_true_eq]
  constructor
  · intro he
    have he1 := List.append_inj he (by simp only [List.length_append, lX, lH, clearLeft_length, lDm2, lH'])
    exact (List.append_inj he1.1 (by rw [lX, clearLeft_length, lDm2])).2
  · intro he
    rw [← he] at e2
    obtain rfl : mask2 = mask' := Except.ok.inj (e2.symm.trans h1)
    rw [← he, ← hX]

/-- Sign the hash `mh`, verify for `message`: accepted exactly if the two salted hashes agree. -/
theorem signPss_validate {w : Nat} {kp : RsaPub} {ks : RsaPriv} {n e d : Nat} (hp : PubOk w kp n e) (hs : PrivOk w ks n d) (hv : ValidPair n e d)
    (k : Nat) (hk0 : 0 < k) (hlo : 2 ^ (8 * k - 1) ≤ n) (hhi : n < 2 ^ (8 * k)) (c : HashClass) (message mh salt : List Byte)
    (hm : message.length < 2 ^ 61) (hk : hashsize c + salt.length + 2 ≤ k) (hk2 : k ≤ 2 ^ 32) (hd : mh.length + salt.length + 8 < 2 ^ 61) :
    ∃ sig, signPss (32 * w) ks c mh salt = .ok sig ∧ sig.length = k ∧ ∃ b, validatePss (32 * w) kp c salt.length message sig = .ok b ∧
      (b = true ↔ digest c (List.replicate 8 0#8 ++ mh ++ salt) = digest c (List.replicate 8 0#8 ++ digest c message ++ salt)) := by
  have hbits : ks.actualN = 8 * k := bitlen_unique hs.lo hs.hi hlo hhi hs.pos (by omega)
  have hfit : 8 * k ≤ 32 * w := by have := hs.fit; omega
  have ha8 : ks.actualN / 8 = k := by omega
  obtain ⟨mask, m1, m2, eg⟩ := pssEncoded c mh salt k hk hk2 hd
  obtain ⟨b, hb, hbiff⟩ := pssCheck_encoded c message mh salt mask k hm hk hk2 hd m1 m2
  have lD := pssDB_length (k - hashsize c - 1) salt (by omega)
  have lDm : (xorOctets (pssDB (k - hashsize c - 1) salt) mask).length = k - hashsize c - 1 := by rw [xorOctets_length _ _ (by omega), lD]
  have lH : (digest c (List.replicate 8 0#8 ++ mh ++ salt)).length = hashsize c := digest_length c _ (by simp; omega)
  have hclear : clearLeft 1 (clearLeft 1 (xorOctets (pssDB (k - hashsize c - 1) salt) mask) ++ digest c (List.replicate 8 0#8 ++ mh ++ salt) ++ [0xbc#8]) =
      clearLeft 1 (xorOctets (pssDB (k - hashsize c - 1) salt) mask) ++ digest c (List.replicate 8 0#8 ++ mh ++ salt) ++ [0xbc#8] := by
    rw [List.append_assoc, clearLeft_append _ _ (by rw [clearLeft_length]; omega), clearLeft_idem]
  have lEM : (clearLeft 1 (xorOctets (pssDB (k - hashsize c - 1) salt) mask) ++ digest c (List.replicate 8 0#8 ++ mh ++ salt) ++ [0xbc#8]).length = k := by
    simp only [List.length_append, clearLeft_length, lDm, lH, List.length_singleton]; omega
  generalize clearLeft 1 (xorOctets (pssDB (k - hashsize c - 1) salt) mask) ++ digest c (List.replicate 8 0#8 ++ mh ++ salt) ++ [0xbc#8] = EM at *
  have hEMlt : beNat EM < n := by
    have := clear_lt EM (by omega) hclear
    rw [lEM] at this; omega
  obtain ⟨lb1, vb1⟩ := bnOfBytes_rev w EM (by omega)
  obtain ⟨r, er, lr, vr⟩ := rsadp_spec hs (bnOfBytes (32 * w) EM.reverse) lb1
  rw [vb1] at vr
  have hrn : value r < 2 ^ (8 * k) := by
    rw [vr]; exact lt_of_le_of_lt (canonN_le (by have := hs.hn; omega) _) hhi
  refine ⟨i2osp (value r) k, ?_, i2osp_length _ _, b, ?_, hbiff⟩
  · rw [signPss_eq, ha8, eg, loop_ok_bind, er, loop_ok_bind, asBytes_i2osp]; rfl
  · obtain ⟨lb2, vb2⟩ := bnOfBytes_rev w (i2osp (value r) k) (by rw [i2osp_length]; omega)
    obtain ⟨r2, er2, lr2, vr2⟩ := rsaep_spec hp (bnOfBytes (32 * w) (i2osp (value r) k).reverse) lb2
    rw [vb2, beNat_i2osp, Nat.mod_eq_of_lt hrn, vr, canonN_roundtrip (validPair_symm hv) hEMlt] at vr2
    rw [validatePss_eq, er2, loop_ok_bind, asBytes_i2osp, i2osp_length, vr2, ← lEM, i2osp_beNat]
    exact hb

end Verif.Proof
