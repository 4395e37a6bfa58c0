import Verif.Model.Base64
import Verif.Spec.Base64
import Verif.Proof.BlockHash

namespace Verif.Proof
open Verif.Model

theorem acc8 (v : U32) (b : Byte) : ((v <<< 8) ||| b.setWidth 32).toNat = (v.toNat * 256 + b.toNat) % 2 ^ 32 := by
  have hb := b.isLt
  rw [BitVec.toNat_or, BitVec.toNat_shiftLeft, BitVec.toNat_setWidth, Nat.mod_eq_of_lt (a := b.toNat) (by omega), Nat.shiftLeft_eq,
    show (2:Nat) ^ 32 = 2 ^ 8 * 2 ^ 24 by norm_num, Nat.mul_comm v.toNat, Nat.mul_mod_mul_left, ← Nat.two_pow_add_eq_or_of_lt (by omega)]
  omega

theorem acc6 (v : U32) (r : Nat) (hr : r < 64) : ((v <<< 6) ||| (BitVec.ofNat 8 r).setWidth 32).toNat = (v.toNat * 64 + r) % 2 ^ 32 := by
  rw [BitVec.toNat_or, BitVec.toNat_shiftLeft, BitVec.toNat_setWidth, BitVec.toNat_ofNat, Nat.mod_eq_of_lt (a := r % 2 ^ 8) (by omega),
    Nat.mod_eq_of_lt (a := r) (by omega), Nat.shiftLeft_eq,
    show (2:Nat) ^ 32 = 2 ^ 6 * 2 ^ 26 by norm_num, Nat.mul_comm v.toNat, Nat.mul_mod_mul_left, ← Nat.two_pow_add_eq_or_of_lt (by omega)]
  omega

theorem encAt_shr (e : List Byte) (v : U32) (k : Nat) : encAt e (v >>> k) = e.getD (v.toNat / 2 ^ k % 64) 0#8 := by
  rw [encAt, BitVec.toNat_and, BitVec.toNat_ushiftRight, show BitVec.toNat 0x3F#32 = 2 ^ 6 - 1 by rfl, Nat.and_two_pow_sub_one_eq_mod,
    Nat.shiftRight_eq_div_pow]

theorem encAt_shl (e : List Byte) (v : U32) (k : Nat) : encAt e (v <<< k) = e.getD (v.toNat * 2 ^ k % 64) 0#8 := by
  rw [encAt, BitVec.toNat_and, BitVec.toNat_shiftLeft, show BitVec.toNat 0x3F#32 = 2 ^ 6 - 1 by rfl, Nat.and_two_pow_sub_one_eq_mod,
    Nat.shiftLeft_eq, Nat.mod_mod_of_dvd _ (by norm_num)]

theorem byte_shr (v : U32) (k : Nat) : ((v >>> k) &&& 0xFF#32).setWidth 8 = BitVec.ofNat 8 (v.toNat / 2 ^ k) := by
  apply BitVec.eq_of_toNat_eq
  rw [BitVec.toNat_setWidth, BitVec.toNat_and, BitVec.toNat_ushiftRight, show BitVec.toNat 0xFF#32 = 2 ^ 8 - 1 by rfl,
    Nat.and_two_pow_sub_one_eq_mod, BitVec.toNat_ofNat, Nat.mod_mod, Nat.shiftRight_eq_div_pow]

/-- the four digits of a group -/
def quad (e : List Byte) (a b c : Byte) : List Byte :=
  let n := a.toNat * 65536 + b.toNat * 256 + c.toNat
  [n / 262144, n / 4096 % 64, n / 64 % 64, n % 64].map (fun s => e.getD s 0#8)

/-- what one complete group does to the state -/
def groupStep (e : List Byte) (nl : Bool) (st : B64State) (a b c : Byte) (v : U32) : B64State :=
  if st.blocksOnLine + 1 = 19 then ⟨st.out ++ quad e a b c ++ (if nl then [0x0a#8] else []), v, 0, 0⟩
  else ⟨st.out ++ quad e a b c, v, 0, st.blocksOnLine + 1⟩

theorem step3 (e : List Byte) (nl : Bool) (st : B64State) (hc : st.count = 0) (a b c : Byte) :
    ∃ v, b64Step e nl (b64Step e nl (b64Step e nl st a) b) c = groupStep e nl st a b c v := by
  refine ⟨(((((st.value <<< 8) ||| a.setWidth 32) <<< 8) ||| b.setWidth 32) <<< 8) ||| c.setWidth 32, ?_⟩
  · simp only [b64Step, hc]
    simp only [show ¬ (0 + 1 = 3) by decide, show ¬ (0 + 1 + 1 = 3) by decide, if_false, if_true]
    set v1 := (st.value <<< 8) ||| a.setWidth 32 with hv1
    set v2 := (v1 <<< 8) ||| b.setWidth 32 with hv2
    set v3 := (v2 <<< 8) ||| c.setWidth 32 with hv3
    have e1 := acc8 st.value a; rw [← hv1] at e1
    have e2 := acc8 v1 b; rw [← hv2] at e2
    have e3 := acc8 v2 c; rw [← hv3] at e3
    have ha := a.isLt; have hb := b.isLt; have hc' := c.isLt
    have hq : [encAt e (v3 >>> 18), encAt e (v3 >>> 12), encAt e (v3 >>> 6), encAt e (v3 >>> 0)] = quad e a b c := by
      simp only [encAt_shr, quad, List.map_cons, List.map_nil]
      have h0 : v3.toNat / 2 ^ 18 % 64 = (a.toNat * 65536 + b.toNat * 256 + c.toNat) / 262144 := by omega
      have h1 : v3.toNat / 2 ^ 12 % 64 = (a.toNat * 65536 + b.toNat * 256 + c.toNat) / 4096 % 64 := by omega
      have h2 : v3.toNat / 2 ^ 6 % 64 = (a.toNat * 65536 + b.toNat * 256 + c.toNat) / 64 % 64 := by omega
      have h3 : v3.toNat / 2 ^ 0 % 64 = (a.toNat * 65536 + b.toNat * 256 + c.toNat) % 64 := by omega
      rw [h0, h1, h2, h3]
    rw [hq]
    unfold groupStep
    cases nl <;> simp

/-- Loop invariant at group boundaries; `T` is the text produced so far without line feeds. -/
structure B64Inv (nl : Bool) (st : B64State) (T : List Byte) : Prop where
  out : st.out = if nl then Spec.breakLines T else T
  count : st.count = 0
  len : T.length % 4 = 0
  line : st.blocksOnLine = T.length / 4 % 19

theorem breakLines_append (T q : List Byte) (h4 : T.length % 4 = 0) (hq : q.length = 4) :
    Spec.breakLines (T ++ q) = Spec.breakLines T ++ q ++ (if (T.length + 4) % 76 = 0 then [0x0a#8] else []) := by
  obtain ⟨n, hn⟩ : ∃ n, n = T.length / 76 * 76 := ⟨_, rfl⟩
  have hT : T = T.take n ++ T.drop n := (List.take_append_drop n T).symm
  have hl0 : (T.take n).length = n := by rw [List.length_take]; omega
  have hl1 : (T.drop n).length = T.length - n := List.length_drop
  have hdvd : 76 ∣ (T.take n).length := by rw [hl0, hn]; exact Nat.dvd_mul_left _ _
  have hb0 : Spec.blocks 76 T = Spec.blocks 76 (T.take n) := by
    conv_lhs => rw [hT]
    rw [blocks_append (by decide) _ _ hdvd, blocks_lt (m := T.drop n) (by omega), List.append_nil]
  have hbq : Spec.blocks 76 (T ++ q) = Spec.blocks 76 (T.take n) ++ Spec.blocks 76 (T.drop n ++ q) := by
    conv_lhs => rw [hT, List.append_assoc]
    rw [blocks_append (by decide) _ _ hdvd]
  rw [Spec.breakLines, Spec.breakLines, hb0, hbq, List.flatMap_append, List.length_append, hq]
  by_cases h : (T.length + 4) % 76 = 0
  · rw [if_pos h, blocks_single (b := T.drop n ++ q) (by decide) (by rw [List.length_append, hl1, hq]; omega), List.drop_of_length_le (l := T ++ q) (by
      rw [List.length_append, hq]; omega), ← hn]
    simp
  · rw [if_neg h, blocks_lt (m := T.drop n ++ q) (by rw [List.length_append, hl1, hq]; omega), ← hn,
      show (T.length + 4) / 76 * 76 = n by omega, List.drop_append_of_le_length (by omega)]
    simp

theorem quad_length (e : List Byte) (a b c : Byte) : (quad e a b c).length = 4 := rfl

theorem inv_group {e : List Byte} {nl : Bool} {st : B64State} {T : List Byte} (h : B64Inv nl st T) (a b c : Byte) (v : U32) :
    B64Inv nl (groupStep e nl st a b c v) (T ++ quad e a b c) := by
  obtain ⟨ho, hc, h4, hline⟩ := h
  have hb := breakLines_append T (quad e a b c) h4 rfl
  unfold groupStep
  by_cases h19 : st.blocksOnLine + 1 = 19
  · rw [if_pos h19]
    rw [if_pos (by omega)] at hb
    refine ⟨?_, rfl, ?_, ?_⟩
    · cases nl
      · simp [ho]
      · simp [ho, hb]
    · rw [List.length_append, quad_length]; omega
    · rw [List.length_append, quad_length]; show 0 = _; omega
  · rw [if_neg h19]
    rw [if_neg (by omega), List.append_nil] at hb
    refine ⟨?_, rfl, ?_, ?_⟩
    · cases nl
      · simp [ho]
      · simp [ho, hb]
    · rw [List.length_append, quad_length]; omega
    · rw [List.length_append, quad_length]; show st.blocksOnLine + 1 = _; omega

theorem inv_full (e : List Byte) (nl : Bool) : ∀ (g : Nat) (d : List Byte) (st : B64State) (T : List Byte), d.length = 3 * g → B64Inv nl st T →
    B64Inv nl (d.foldl (b64Step e nl) st) (T ++ (Spec.sextets d).map (fun s => e.getD s 0#8)) := by
  intro g
  induction g with
  | zero =>
    intro d st T hd h
    have : d = [] := List.length_eq_zero_iff.mp (by omega)
    subst this
    simpa [Spec.sextets] using h
  | succ g ih =>
    intro d st T hd h
    match d, hd with
    | a :: b :: c :: r, hd =>
      obtain ⟨v, hv⟩ := step3 e nl st h.count a b c
      rw [List.foldl_cons, List.foldl_cons, List.foldl_cons, hv]
      have := ih r _ _ (by simp at hd; omega) (inv_group (e := e) h a b c v)
      rw [Spec.sextets, List.map_append, ← List.append_assoc]
      exact this
    | [a, b], hd => simp at hd; omega
    | [a], hd => simp at hd; omega
    | [], hd => simp at hd

theorem sextets_append : ∀ (g : Nat) (d t : List Byte), d.length = 3 * g → Spec.sextets (d ++ t) = Spec.sextets d ++ Spec.sextets t := by
  intro g
  induction g with
  | zero =>
    intro d t hd
    have : d = [] := List.length_eq_zero_iff.mp (by omega)
    subst this
    simp [Spec.sextets]
  | succ g ih =>
    intro d t hd
    match d, hd with
    | a :: b :: c :: r, hd =>
      rw [List.cons_append, List.cons_append, List.cons_append, Spec.sextets, Spec.sextets, ih r t (by simp at hd; omega), List.append_assoc]
    | [a, b], hd => simp at hd; omega
    | [a], hd => simp at hd; omega
    | [], hd => simp at hd

/-- Finishing from a group boundary with at most two more bytes. -/
theorem finish_tail (e : List Byte) (nl om : Bool) (st : B64State) (hc : st.count = 0) (t : List Byte) (ht : t.length < 3) :
    b64Finish e nl om (t.foldl (b64Step e nl) st) = st.out ++ Spec.base64Text e om t ++ (if nl then [0x0a#8] else []) := by
  match t, ht with
  | [], _ =>
    simp only [List.foldl_nil, b64Finish, hc, Spec.base64Text, Spec.sextets]
    cases nl <;> cases om <;> simp [Spec.padCount]
  | [a], _ =>
    have h1 : b64Step e nl st a = { st with value := (st.value <<< 8) ||| a.setWidth 32, count := 1 } := by
      simp [b64Step, hc]
    rw [List.foldl_cons, List.foldl_nil, h1]
    have e1 := acc8 st.value a
    have ha := a.isLt
    simp only [b64Finish, if_true, encAt_shr, encAt_shl, e1, Spec.base64Text, Spec.sextets, List.map_cons, List.map_nil]
    rw [show (st.value.toNat * 256 + a.toNat) % 2 ^ 32 / 2 ^ 2 % 64 = a.toNat / 4 by omega,
      show (st.value.toNat * 256 + a.toNat) % 2 ^ 32 * 2 ^ 4 % 64 = a.toNat % 4 * 16 by omega]
    cases nl <;> cases om <;> simp [Spec.padCount, List.replicate]
  | [a, b], _ =>
    have h1 : b64Step e nl (b64Step e nl st a) b =
        { st with value := ((((st.value <<< 8) ||| a.setWidth 32) <<< 8) ||| b.setWidth 32), count := 2 } := by
      simp [b64Step, hc]
    rw [List.foldl_cons, List.foldl_cons, List.foldl_nil, h1]
    have e1 := acc8 st.value a
    have e2 := acc8 ((st.value <<< 8) ||| a.setWidth 32) b
    rw [e1] at e2
    have ha := a.isLt
    have hb := b.isLt
    simp only [b64Finish, show ¬ (2 = 1) by decide, if_false, if_true, encAt_shr, encAt_shl, e2, Spec.base64Text, Spec.sextets, List.map_cons, List.map_nil]
    rw [show ((st.value.toNat * 256 + a.toNat) % 2 ^ 32 * 256 + b.toNat) % 2 ^ 32 / 2 ^ 10 % 64 = (a.toNat * 256 + b.toNat) / 1024 by omega,
      show ((st.value.toNat * 256 + a.toNat) % 2 ^ 32 * 256 + b.toNat) % 2 ^ 32 / 2 ^ 4 % 64 = (a.toNat * 256 + b.toNat) / 16 % 64 by omega,
      show ((st.value.toNat * 256 + a.toNat) % 2 ^ 32 * 256 + b.toNat) % 2 ^ 32 * 2 ^ 2 % 64 = (a.toNat * 256 + b.toNat) % 16 * 4 by omega]
    cases nl <;> cases om <;> simp [Spec.padCount]

theorem base64_eq (data : List Byte) (om : Bool) (cs : Base64CharSet) :
    base64 data false om cs = Spec.base64Text (getLookupFor cs) om data ∧
    base64 data true om cs = Spec.base64Lines (getLookupFor cs) om data := by
  set k := data.length / 3 * 3 with hk
  have hfull : (data.take k).length = 3 * (data.length / 3) := by rw [List.length_take]; omega
  have htail : (data.drop k).length < 3 := by rw [List.length_drop]; omega
  have main : ∀ nl, base64 data nl om cs = (if nl then Spec.breakLines ((Spec.sextets (data.take k)).map (fun s => (getLookupFor cs).getD s 0#8))
      else ((Spec.sextets (data.take k)).map (fun s => (getLookupFor cs).getD s 0#8))) ++ Spec.base64Text (getLookupFor cs) om (data.drop k) ++
      (if nl then [0x0a#8] else []) := by
    intro nl
    have h0 : B64Inv nl ⟨[], 0#32, 0, 0⟩ [] := ⟨by cases nl <;> simp [Spec.breakLines, blocks_lt], rfl, rfl, rfl⟩
    have h1 := inv_full (getLookupFor cs) nl _ (data.take k) _ _ hfull h0
    rw [base64]
    conv_lhs => rw [← List.take_append_drop k data]
    rw [List.foldl_append]
    have h2 := finish_tail (getLookupFor cs) nl om _ h1.count (data.drop k) htail
    rw [h1.out, List.nil_append] at h2
    exact h2
  refine ⟨?_, ?_⟩
  · rw [main false]
    conv_rhs => rw [Spec.base64Text, ← List.take_append_drop k data, sextets_append _ _ _ hfull]
    rw [Spec.base64Text, List.map_append, List.take_append_drop, show Spec.padCount (data.drop k).length = Spec.padCount data.length by
      rw [List.length_drop, Spec.padCount, Spec.padCount]; congr 1; congr 1; omega]
    simp
  · rw [main true, Spec.base64Lines]
    simp [Spec.base64Text, ← hk]

/-! ### Decoder -/

theorem valueOf_eq : ∀ c : Byte, valueOf.getD c.toNat (-1) = (match Spec.sextetOf c with | some n => (n : Int) | none => -1) ∧
    (∀ n, Spec.sextetOf c = some n → n < 64) := by
  have h : ∀ c : Byte, (valueOf.getD c.toNat (-1) == (Spec.sextetOf c).elim (-1) (fun n => (n : Int)) &&
    (Spec.sextetOf c).all (fun n => decide (n < 64))) = true := by decide +kernel
  intro c
  have := h c
  rw [Bool.and_eq_true, beq_iff_eq] at this
  refine ⟨?_, ?_⟩
  · rw [this.1]
    cases Spec.sextetOf c <;> rfl
  · intro n hn
    have := this.2
    rw [hn] at this
    simpa using this

/-- decoder step on a sextet -/
def sextetStep (st : B64DState) (r : Nat) : B64DState :=
  let value := (st.value <<< 6) ||| (BitVec.ofNat 8 r).setWidth 32
  let count := st.count + 1
  if count ≠ 4 then { st with value := value, count := count }
  else ⟨st.out ++ [((value >>> 16) &&& 0xFF#32).setWidth 8, ((value >>> 8) &&& 0xFF#32).setWidth 8,
    ((value >>> 0) &&& 0xFF#32).setWidth 8], value, 0⟩

theorem b64dStep_eq (st : B64DState) (c : Byte) : b64dStep st c = (match Spec.sextetOf c with | some n => sextetStep st n | none => st) := by
  rw [b64dStep, (valueOf_eq c).1]
  cases h : Spec.sextetOf c with
  | none => simp
  | some n =>
    have : ¬ ((n : Int) = -1) := by omega
    simp only [this, if_false, sextetStep, BitVec.ofInt_natCast]

theorem foldl_b64d : ∀ (t : List Byte) (st : B64DState), t.foldl b64dStep st = (t.filterMap Spec.sextetOf).foldl sextetStep st
  | [], _ => rfl
  | c :: t, st => by
      rw [List.foldl_cons, foldl_b64d t, b64dStep_eq, List.filterMap_cons]
      cases Spec.sextetOf c <;> rfl

theorem sextetStep_lt (st : B64DState) (r : Nat) (h : st.count + 1 ≠ 4) :
    sextetStep st r = ⟨st.out, (st.value <<< 6) ||| (BitVec.ofNat 8 r).setWidth 32, st.count + 1⟩ := by
  rw [sextetStep]; simp only [h, ne_eq, not_false_eq_true, if_true]

theorem decode_sextets : ∀ (n : Nat) (l : List Nat), l.length ≤ n → (∀ x ∈ l, x < 64) → ∀ st : B64DState, st.count = 0 →
    b64dFinish (l.foldl sextetStep st) = st.out ++ Spec.unsextets l := by
  intro n
  induction n with
  | zero =>
    intro l hl _ st hc
    have : l = [] := List.length_eq_zero_iff.mp (by omega)
    subst this
    simp [b64dFinish, hc, Spec.unsextets]
  | succ n ih =>
    intro l hl hx st hc
    have v1 : ∀ a, sextetStep st a = ⟨st.out, (st.value <<< 6) ||| (BitVec.ofNat 8 a).setWidth 32, 1⟩ := by
      intro a; rw [sextetStep_lt st a (by omega), hc]
    match l, hl, hx with
    | [], _, _ => simp [b64dFinish, hc, Spec.unsextets]
    | [a], _, _ =>
      rw [List.foldl_cons, List.foldl_nil, v1]
      simp [b64dFinish, Spec.unsextets]
    | [a, b], _, hx =>
      have ha := hx a (by simp)
      have hb := hx b (by simp)
      rw [List.foldl_cons, List.foldl_cons, List.foldl_nil, v1, sextetStep_lt _ b (by simp)]
      have e1 := acc6 st.value a ha
      have e2 := acc6 ((st.value <<< 6) ||| (BitVec.ofNat 8 a).setWidth 32) b hb
      rw [e1] at e2
      simp only [b64dFinish, if_true, byte_shr, e2, Spec.unsextets]
      congr 2
      apply BitVec.eq_of_toNat_eq
      rw [BitVec.toNat_ofNat, BitVec.toNat_ofNat]
      omega
    | [a, b, c], _, hx =>
      have ha := hx a (by simp)
      have hb := hx b (by simp)
      have hc := hx c (by simp)
      rw [List.foldl_cons, List.foldl_cons, List.foldl_cons, List.foldl_nil, v1, sextetStep_lt _ b (by simp), sextetStep_lt _ c (by simp)]
      have e1 := acc6 st.value a ha
      have e2 := acc6 ((st.value <<< 6) ||| (BitVec.ofNat 8 a).setWidth 32) b hb
      rw [e1] at e2
      have e3 := acc6 ((((st.value <<< 6) ||| (BitVec.ofNat 8 a).setWidth 32) <<< 6) ||| (BitVec.ofNat 8 b).setWidth 32) c hc
      rw [e2] at e3
      simp only [b64dFinish, show ¬ (1 + 1 + 1 = 2) by decide, if_false, if_true, byte_shr, e3, Spec.unsextets]
      congr 2
      · apply BitVec.eq_of_toNat_eq
        rw [BitVec.toNat_ofNat, BitVec.toNat_ofNat]
        omega
      · congr 1
        apply BitVec.eq_of_toNat_eq
        rw [BitVec.toNat_ofNat, BitVec.toNat_ofNat]
        omega
    | a :: b :: c :: d :: r, hl, hx =>
      have ha := hx a (by simp)
      have hb := hx b (by simp)
      have hc' := hx c (by simp)
      have hd := hx d (by simp)
      rw [List.foldl_cons, List.foldl_cons, List.foldl_cons, List.foldl_cons, v1, sextetStep_lt _ b (by simp), sextetStep_lt _ c (by simp)]
      have e1 := acc6 st.value a ha
      have e2 := acc6 ((st.value <<< 6) ||| (BitVec.ofNat 8 a).setWidth 32) b hb
      rw [e1] at e2
      have e3 := acc6 ((((st.value <<< 6) ||| (BitVec.ofNat 8 a).setWidth 32) <<< 6) ||| (BitVec.ofNat 8 b).setWidth 32) c hc'
      rw [e2] at e3
      have e4 := acc6 ((((((st.value <<< 6) ||| (BitVec.ofNat 8 a).setWidth 32) <<< 6) ||| (BitVec.ofNat 8 b).setWidth 32) <<< 6) |||
        (BitVec.ofNat 8 c).setWidth 32) d hd
      rw [e3] at e4
      have hs : ∀ v : U32, sextetStep ⟨st.out, v, 1 + 1 + 1⟩ d = ⟨st.out ++ [(((v <<< 6 ||| (BitVec.ofNat 8 d).setWidth 32) >>> 16) &&& 0xFF#32).setWidth 8,
          (((v <<< 6 ||| (BitVec.ofNat 8 d).setWidth 32) >>> 8) &&& 0xFF#32).setWidth 8,
          (((v <<< 6 ||| (BitVec.ofNat 8 d).setWidth 32) >>> 0) &&& 0xFF#32).setWidth 8], v <<< 6 ||| (BitVec.ofNat 8 d).setWidth 32, 0⟩ := by
        intro v; rfl
      rw [hs, ih r (by simp at hl; omega) (fun x hx' => hx x (by simp [hx'])) _ rfl]
      simp only [byte_shr, e4, Spec.unsextets]
      rw [List.append_assoc]
      congr 2
      refine congrArg₂ _ ?_ (congrArg₂ _ ?_ (congrArg₂ _ ?_ rfl))
      all_goals
        apply BitVec.eq_of_toNat_eq
        rw [BitVec.toNat_ofNat, BitVec.toNat_ofNat]
        omega

theorem base64d_eq (t : List Byte) : base64d t = Spec.unsextets (t.filterMap Spec.sextetOf) := by
  rw [base64d, foldl_b64d, decode_sextets _ _ (le_refl _) _ _ rfl, List.nil_append]
  intro x hx
  obtain ⟨c, _, hc⟩ := List.mem_filterMap.mp hx
  exact (valueOf_eq c).2 x hc

theorem unsextets_length : ∀ (n : Nat) (l : List Nat), l.length ≤ n → (Spec.unsextets l).length = 6 * l.length / 8 := by
  intro n
  induction n with
  | zero =>
    intro l hl
    have : l = [] := List.length_eq_zero_iff.mp (by omega)
    subst this; rfl
  | succ n ih =>
    intro l hl
    match l, hl with
    | [], _ => rfl
    | [a], _ => simp [Spec.unsextets]
    | [a, b], _ => simp [Spec.unsextets]
    | [a, b, c], _ => simp [Spec.unsextets]
    | a :: b :: c :: d :: r, hl =>
      rw [Spec.unsextets, List.length_append, ih r (by simp at hl; omega)]
      simp only [List.length_cons, List.length_nil]
      omega

theorem sextets_lt : ∀ (n : Nat) (d : List Byte), d.length ≤ n → ∀ x ∈ Spec.sextets d, x < 64 := by
  intro n
  induction n with
  | zero =>
    intro d hd x hx
    have : d = [] := List.length_eq_zero_iff.mp (by omega)
    subst this; simp [Spec.sextets] at hx
  | succ n ih =>
    intro d hd x hx
    match d, hd with
    | [], _ => simp [Spec.sextets] at hx
    | [a], _ =>
      have := a.isLt
      simp [Spec.sextets] at hx
      omega
    | [a, b], _ =>
      have := a.isLt; have := b.isLt
      simp [Spec.sextets] at hx
      omega
    | a :: b :: c :: r, hd =>
      have := a.isLt; have := b.isLt; have := c.isLt
      rw [Spec.sextets, List.mem_append] at hx
      rcases hx with hx | hx
      · simp at hx; omega
      · exact ih r (by simp at hd; omega) x hx

theorem unsextets_sextets : ∀ (n : Nat) (d : List Byte), d.length ≤ n → Spec.unsextets (Spec.sextets d) = d := by
  have e : ∀ (b : Byte) (x : Nat), x % 256 = b.toNat → BitVec.ofNat 8 x = b := by
    intro b x h
    apply BitVec.eq_of_toNat_eq
    rw [BitVec.toNat_ofNat, ← h]
  intro n
  induction n with
  | zero =>
    intro d hd
    have : d = [] := List.length_eq_zero_iff.mp (by omega)
    subst this; rfl
  | succ n ih =>
    intro d hd
    match d, hd with
    | [], _ => rfl
    | [a], _ =>
      have := a.isLt
      rw [Spec.sextets, Spec.unsextets]
      congr 1
      exact e a _ (by omega)
    | [a, b], _ =>
      have := a.isLt; have := b.isLt
      rw [Spec.sextets, Spec.unsextets]
      refine congrArg₂ _ (e a _ (by omega)) (congrArg₂ _ (e b _ (by omega)) rfl)
    | a :: b :: c :: r, hd =>
      have := a.isLt; have := b.isLt; have := c.isLt
      rw [Spec.sextets]
      simp only [List.cons_append, List.nil_append, Spec.unsextets]
      refine congrArg₂ _ (e a _ (by omega)) (congrArg₂ _ (e b _ (by omega)) (congrArg₂ _ (e c _ (by omega)) (ih r (by simp at hd; omega))))

end Verif.Proof
