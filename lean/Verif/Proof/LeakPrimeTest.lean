import Verif.Proof.LeakPrimeSync
import Verif.Props.Prime
import Verif.Props.RandomState

/-! What the events of the whole primality test and of `random_prime` reveal. -/

namespace Verif.Proof

open Verif.Model Verif.Spec Verif.Props

variable {v : Obs → Option Obs}

section

variable {w : Nat} {st st' : MontState} (ok : MontOk w st) (ok' : MontOk w st') (hn : 2 < value st.N) (hn' : 2 < value st'.N) {m m' : List U32} (lm : m.length = w) (lm' : m'.length = w)
  (vm : value m = value st.N - 1) (vm' : value m' = value st'.N - 1) {g g' : List U32} {d d' r : Nat} (lg : g.length = w) (lg' : g'.length = w)
  (hg : (value g : ZMod (value st.N)) = (d : ZMod (value st.N)) * 2 ^ (32 * w)) (hg' : (value g' : ZMod (value st'.N)) = (d' : ZMod (value st'.N)) * 2 ^ (32 * w))
  (hd : d < value st.N) (hd0 : 0 < d) (hd' : d' < value st'.N) (hd0' : 0 < d')

include ok ok' hn hn' lm lm' vm vm' lg lg' hg hg' hd hd0 hd' hd0'

theorem sync_mrBases (hv : View v) : ∀ (l : List Nat) (i : Nat), (∀ a ∈ l, a < 2 ^ 32) →
    Sync v (fun b b' => b = b' ∧ (b = true → ∀ a ∈ l, SameOrder (value st.N) (value st'.N) a d d' r) ∧ (l ≠ [] → v = some → d = d'))
      (mrBasesL (32 * w) st g r m i l) (mrBasesL (32 * w) st' g' r m' i l)
  | [], i, _ => by
    rw [mrBasesL, mrBasesL]
    exact Sync.bind (Same.sync hv (Same.emit rfl)) fun _ _ _ => Sync.pure ⟨rfl, fun _ a ha => (nomatch ha), fun h => absurd rfl h⟩
  | a :: l, i, h => by
    rw [mrBasesL, mrBasesL]
    refine Sync.bind (Same.sync hv (Same.emit rfl)) fun _ _ _ => Sync.bind (Same.sync hv (Same.emit rfl)) fun _ _ _ => ?_
    refine Sync.bind (sync_mrOneLoop ok ok' hn hn' lm lm' vm vm' lg lg' hg hg' hd hd0 hd' hd0' (h a (by simp)) hv) fun b b' hb => ?_
    obtain ⟨rfl, ho, hs⟩ := hb
    refine Sync.bind (Same.sync hv (Same.emit rfl)) fun _ _ _ => Sync.ite Iff.rfl (fun _ => ?_) fun _ => Sync.pure ⟨rfl, fun h => (Bool.false_ne_true h).elim, fun _ => hs⟩
    refine (sync_mrBases hv l (i + 1) fun a ha => h a (List.mem_cons_of_mem _ ha)).mono fun b b' hb => ⟨hb.1, fun ht c hc => ?_, fun _ => hs⟩
    rcases List.mem_cons.mp hc with rfl | hc
    · exact ho
    · exact hb.2.1 ht c hc

theorem same_mrBases (hr : 0 < r) : ∀ (l : List Nat) (i : Nat), (∀ a ∈ l, a < 2 ^ 32) → (∀ a ∈ l, SameOrder (value st.N) (value st'.N) a d d' r) →
    Same blank (fun b b' => b = b') (mrBasesL (32 * w) st g r m i l) (mrBasesL (32 * w) st' g' r m' i l)
  | [], i, _, _ => by
    rw [mrBasesL, mrBasesL]
    exact Same.bind (Same.emit rfl) fun _ _ _ => Same.pure rfl
  | a :: l, i, h, ho => by
    rw [mrBasesL, mrBasesL]
    refine Same.bind (Same.emit rfl) fun _ _ _ => Same.bind (Same.emit rfl) fun _ _ _ => ?_
    refine Same.bind (same_mrOneLoop ok ok' hn hn' lm lm' vm vm' lg lg' hg hg' hd hd0 hd' hd0' (h a (by simp)) (ho a (by simp)) hr) fun b b' hb => ?_
    subst hb
    exact Same.bind (Same.emit rfl) fun _ _ _ => Same.ite Iff.rfl (fun _ => same_mrBases hr l (i + 1) (fun a ha => h a (List.mem_cons_of_mem _ ha)) fun a ha => ho a (List.mem_cons_of_mem _ ha))
      fun _ => Same.pure rfl

end

/-- The odd part and the exponent of two are unique. -/
theorem two_pow_odd {r d r' d' : Nat} (e : 2 ^ r * d = 2 ^ r' * d') (h : d % 2 = 1) (h' : d' % 2 = 1) : r = r' ∧ d = d' := by
  induction r generalizing r' with
  | zero =>
    cases r' with
    | zero => simpa using e
    | succ r => rw [pow_succ] at e; rw [show 2 ^ r * 2 * d' = 2 * (2 ^ r * d') by ring] at e; omega
  | succ r ih =>
    cases r' with
    | zero => rw [pow_succ] at e; rw [show 2 ^ r * 2 * d = 2 * (2 ^ r * d) by ring] at e; omega
    | succ r' =>
      rw [pow_succ, pow_succ, show 2 ^ r' * 2 * d' = 2 * (2 ^ r' * d') by ring, show 2 ^ r * 2 * d = 2 * (2 ^ r * d) by ring] at e
      obtain ⟨h1, h2⟩ := ih (r' := r') (by omega)
      exact ⟨by omega, h2⟩

/-- For numbers with the same number of zero bits at the end, `while (d.bit(0) == 0)` has the same events. -/
theorem same_oddPart : ∀ (k : Nat) (d d' : List U32) (r t u u' : Nat), SL d d' → 0 < d.length → value d = 2 ^ t * u → value d' = 2 ^ t * u' → u % 2 = 1 → u' % 2 = 1 →
    Same blank (fun p p' => SL p.1 p'.1 ∧ p.2 = p'.2) (oddPartL k d r) (oddPartL k d' r) := by
  have bit : ∀ {d d' : List U32} {t u u' : Nat}, SL d d' → 0 < d.length → value d = 2 ^ t * u → value d' = 2 ^ t * u' → u % 2 = 1 → u' % 2 = 1 →
      Same blank (fun a b => (a = 0#32 ↔ t ≠ 0) ∧ (b = 0#32 ↔ t ≠ 0)) (bnBitL d 0) (bnBitL d' 0) := by
    intro d d' t u u' hl h0 e e' hu hu'
    have key : ∀ {d : List U32} {u : Nat}, 0 < d.length → value d = 2 ^ t * u → u % 2 = 1 → ∀ a, (bnBitL d 0).res = .ok a → (a = 0#32 ↔ t ≠ 0) := by
      intro d u h0 e hu a ha
      rw [res_bit, bnBit_zero d h0] at ha
      obtain rfl := Except.ok.inj ha
      cases t with
      | zero => rw [pow_zero, one_mul] at e; rw [if_pos (by omega)]; simp
      | succ t =>
        rw [pow_succ, show 2 ^ t * 2 * u = 2 * (2 ^ t * u) by ring] at e
        rw [if_neg (by omega)]; simp
    exact ((same_bit hl 0).and (key h0 e hu) (key (hl ▸ h0) e' hu')).mono fun _ _ h => h.2
  intro k
  induction k with
  | zero =>
    intro d d' r t u u' hl h0 e e' hu hu'
    rw [oddPartL, oddPartL]
    refine Same.bind (bit hl h0 e e' hu hu') fun a b hab => ?_
    have hab : a = 0#32 ↔ b = 0#32 := hab.1.trans hab.2.symm
    refine Same.bind (Same.emit (by rw [show (a == 0#32) = (b == 0#32) by rw [Bool.eq_iff_iff, beq_iff_eq, beq_iff_eq]; exact hab])) fun _ _ _ => ?_
    exact Same.ite hab (fun _ => ⟨rfl, rfl⟩) fun _ => Same.pure ⟨hl, rfl⟩
  | succ k ih =>
    intro d d' r t u u' hl h0 e e' hu hu'
    rw [oddPartL, oddPartL]
    refine Same.bind (bit hl h0 e e' hu hu') fun a b hab2 => ?_
    have hab : a = 0#32 ↔ b = 0#32 := hab2.1.trans hab2.2.symm
    refine Same.bind (Same.emit (by rw [show (a == 0#32) = (b == 0#32) by rw [Bool.eq_iff_iff, beq_iff_eq, beq_iff_eq]; exact hab])) fun _ _ _ => ?_
    refine Same.ite hab (fun ha => ?_) fun _ => Same.pure ⟨hl, rfl⟩
    have ht := hab2.1.mp ha
    obtain ⟨t, rfl⟩ : ∃ s, t = s + 1 := ⟨t - 1, by omega⟩
    refine Same.bind ((same_shr1 hl).and (P := fun p => p = bnShr1 d) (Q := fun p => p = bnShr1 d') ?_ ?_) fun p p' hp => ?_
    · intro p hp; rw [res_shr1] at hp; exact (Except.ok.inj hp).symm
    · intro p hp; rw [res_shr1] at hp; exact (Except.ok.inj hp).symm
    · obtain ⟨hp1, hp2, hp3⟩ := hp
      refine ih p p' (r + 1) t u u' hp1 (by rw [hp2, bnShr1_length]; exact h0) ?_ ?_ hu hu'
      · rw [hp2, bnShr1_value, e, pow_succ, show 2 ^ t * 2 * u = 2 * (2 ^ t * u) by ring]; omega
      · rw [hp3, bnShr1_value, e', pow_succ, show 2 ^ t * 2 * u' = 2 * (2 ^ t * u') by ring]; omega

/-! ### the whole test -/

/-- `num - 1` -/
theorem minusOne {w : Nat} (hw : 0 < w) {num : List U32} (hl : num.length = w) (h1 : 1 ≤ value num) :
    ∀ p : Bool × List U32, (bnSubL num (bnOfU32 (32 * w) 1#32)).res = .ok p → p.2.length = w ∧ value p.2 = value num - 1 := by
  intro p hp
  rw [res_sub] at hp
  obtain rfl := Except.ok.inj hp
  obtain ⟨lo, vo⟩ := bnOfU32_spec (32 * w) (by omega) 1#32
  rw [bnN_mul32] at lo
  rw [show BitVec.toNat 1#32 = 1 by rfl] at vo
  have lm := bnSub_length num (bnOfU32 (32 * w) 1#32) (by omega)
  have sp := bnSub_spec num (bnOfU32 (32 * w) 1#32) (by omega)
  have nb : ¬ (bnSub num (bnOfU32 (32 * w) 1#32)).1 = true := by rw [bnSub_borrow num _ (by omega), vo]; omega
  simp only [nb] at sp
  simp at sp
  exact ⟨by omega, by omega⟩

theorem oddPart_val {w : Nat} {m : List U32} (hl : m.length = w) (hw : 0 < w) {r d : Nat} (hm : value m = 2 ^ r * d) (hd : d % 2 = 1) :
    ∀ p : List U32 × Nat, (oddPartL (32 * w) m 0).res = .ok p → p.1.length = w ∧ value p.1 = d ∧ p.2 = r := by
  intro p hp
  have hlt := value_lt m
  rw [hl] at hlt
  have h0 : value m ≠ 0 := by
    rw [hm]; have : 0 < 2 ^ r := by positivity
    exact Nat.mul_ne_zero (by omega) (by omega)
  obtain ⟨x, t, e1, ld, h1, ho⟩ := oddPart_spec (32 * w) m 0 (by omega) h0 hlt
  rw [res_oddPart, e1] at hp
  obtain rfl := Except.ok.inj hp
  obtain ⟨h2, h3⟩ := two_pow_odd (hm.symm.trans h1) hd ho
  exact ⟨ld.trans hl, h3.symm, by rw [h2, Nat.zero_add]⟩

theorem montNew_val {w : Nat} (hw : 0 < w) {num : List U32} (hl : num.length = w) (hodd : value num % 2 = 1) :
    ∀ s, (montNewL (32 * w) num).res = .ok s → s.N = num ∧ MontOk w s := by
  intro s hs
  obtain ⟨st, e2, hN, ok, -⟩ := montNew_spec w hw num hl hodd
  rw [res_montNew, e2] at hs
  obtain rfl := Except.ok.inj hs
  exact ⟨hN, ok⟩

theorem montOf_val {w : Nat} {st : MontState} (ok : MontOk w st) {x : List U32} (hx : x.length = w) :
    ∀ y, (montOfL (32 * w) st x).res = .ok y → y.length = w ∧ (value y : ZMod (value st.N)) = value x * 2 ^ (32 * w) := by
  intro y hy
  obtain ⟨t, e, l, h⟩ := montOf_zmod ok x hx
  rw [res_montOf, e] at hy
  obtain rfl := Except.ok.inj hy
  exact ⟨l, h⟩

theorem table_u32 : ∀ a ∈ primeTable, a < 2 ^ 32 := fun a ha => by have := table_lt ha; omega

section

variable {w : Nat} (hw : 0 < w) {num num' : List U32} (hl : num.length = w) (hl' : num'.length = w) (hodd : value num % 2 = 1) (hodd' : value num' % 2 = 1) (h3 : 2 < value num)
  (h3' : 2 < value num') {r r' d d' : Nat} (he : value num - 1 = 2 ^ r * d) (he' : value num' - 1 = 2 ^ r' * d') (hd : d % 2 = 1) (hd' : d' % 2 = 1)

include hw hl hl' hodd hodd' h3 h3' he he' hd hd'

theorem sync_mrBig (hv : View v) : Sync v (fun b b' => b = b' ∧ r = r' ∧ (b = true → ∀ a ∈ primeTable, SameOrder (value num) (value num') a d d' r) ∧ (v = some → num = num'))
    (mrBigL (32 * w) num) (mrBigL (32 * w) num') := by
  rw [mrBigL, mrBigL]
  obtain ⟨lo, vo⟩ := bnOfU32_spec (32 * w) (by omega) 1#32
  rw [bnN_mul32] at lo
  have s1 : Same blank (fun x y : List U32 => x = bnOfU32 (32 * w) 1#32 ∧ y = bnOfU32 (32 * w) 1#32) (bnOfU32L (32 * w) 1#32) (bnOfU32L (32 * w) 1#32) := ⟨rfl, rfl, rfl⟩
  refine Sync.bind (Same.sync hv s1) fun o o' ho => ?_
  obtain ⟨rfl, rfl⟩ := ho
  refine Sync.bind (Same.sync hv ((same_sub (hl.trans hl'.symm) rfl).and (minusOne hw hl (by omega)) (minusOne hw hl' (by omega)))) fun m m' hm => ?_
  obtain ⟨-, ⟨lm, vm⟩, lm', vm'⟩ := hm
  refine Sync.bind ((sync_oddPart hv _ _ _ _ (lm.trans lm'.symm)).and (oddPart_val lm hw (vm.trans he) hd) (oddPart_val lm' hw (vm'.trans he') hd')) fun p p' hp => ?_
  obtain ⟨⟨hp1, hp2⟩, ⟨l1, v1, r1⟩, l1', v1', r1'⟩ := hp
  have hr : r = r' := by rw [← r1, ← r1', hp2]
  subst hr
  refine Sync.bind ((sync_montNew hv (32 * w) (⟨by rw [bnN_mul32]; exact hl, by rw [bnN_mul32]; exact hl'⟩ : Len (bnN (32 * w)) num num')).and (montNew_val hw hl hodd) (montNew_val hw hl' hodd'))
    fun s s' hs => ?_
  obtain ⟨hsm, ⟨hN, ok⟩, hN', ok'⟩ := hs
  refine Sync.bind (Same.sync hv ((same_montOf (32 * w) hsm hp1).and (montOf_val ok l1) (montOf_val ok' l1'))) fun g g' hg => ?_
  obtain ⟨-, ⟨lg, vg⟩, lg', vg'⟩ := hg
  have hle : d ≤ value num - 1 := by rw [he]; exact Nat.le_mul_of_pos_left _ (by positivity)
  have hle' : d' ≤ value num' - 1 := by rw [he']; exact Nat.le_mul_of_pos_left _ (by positivity)
  rw [v1] at vg
  rw [v1'] at vg'
  rw [r1, r1']
  refine (sync_mrBases ok ok' (by rw [hN]; exact h3) (by rw [hN']; exact h3') lm lm' (by rw [hN]; exact vm) (by rw [hN']; exact vm') lg lg' vg vg' (by rw [hN]; omega) (by omega)
    (by rw [hN']; omega) (by omega) hv primeTable 0 table_u32).mono fun b b' hb => ⟨hb.1, rfl, ?_, fun hs => ?_⟩
  · rw [← hN, ← hN']; exact hb.2.1
  · refine value_inj (hl.trans hl'.symm) ?_
    have := hb.2.2 (List.cons_ne_nil _ _) hs
    rw [this] at he
    omega

theorem same_mrBig (hr : r = r') (hz : zeros num.reverse = zeros num'.reverse) (h : ∀ a ∈ primeTable, SameOrder (value num) (value num') a d d' r) :
    Same blank (fun b b' => b = b') (mrBigL (32 * w) num) (mrBigL (32 * w) num') := by
  subst hr
  rw [mrBigL, mrBigL]
  obtain ⟨lo, vo⟩ := bnOfU32_spec (32 * w) (by omega) 1#32
  rw [bnN_mul32] at lo
  have s1 : Same blank (fun x y : List U32 => x = bnOfU32 (32 * w) 1#32 ∧ y = bnOfU32 (32 * w) 1#32) (bnOfU32L (32 * w) 1#32) (bnOfU32L (32 * w) 1#32) := ⟨rfl, rfl, rfl⟩
  refine Same.bind s1 fun o o' ho => ?_
  obtain ⟨rfl, rfl⟩ := ho
  refine Same.bind ((same_sub (hl.trans hl'.symm) rfl).and (minusOne hw hl (by omega)) (minusOne hw hl' (by omega))) fun m m' hm => ?_
  obtain ⟨-, ⟨lm, vm⟩, lm', vm'⟩ := hm
  refine Same.bind ((same_oddPart _ _ _ _ r d d' (lm.trans lm'.symm) (by omega) (vm.trans he) (vm'.trans he') hd hd').and (oddPart_val lm hw (vm.trans he) hd) (oddPart_val lm' hw (vm'.trans he') hd'))
    fun p p' hp => ?_
  obtain ⟨⟨hp1, hp2⟩, ⟨l1, v1, r1⟩, l1', v1', r1'⟩ := hp
  refine Same.bind ((same_montNew (32 * w) (⟨by rw [bnN_mul32]; exact hl, by rw [bnN_mul32]; exact hl'⟩ : Len (bnN (32 * w)) num num')
    (by rw [convert_zeros w num hl, convert_zeros w num' hl', hz])).and (montNew_val hw hl hodd) (montNew_val hw hl' hodd')) fun s s' hs => ?_
  obtain ⟨hsm, ⟨hN, ok⟩, hN', ok'⟩ := hs
  refine Same.bind ((same_montOf (32 * w) hsm hp1).and (montOf_val ok l1) (montOf_val ok' l1')) fun g g' hg => ?_
  obtain ⟨-, ⟨lg, vg⟩, lg', vg'⟩ := hg
  have hle : d ≤ value num - 1 := by rw [he]; exact Nat.le_mul_of_pos_left _ (by positivity)
  have hle' : d' ≤ value num' - 1 := by rw [he']; exact Nat.le_mul_of_pos_left _ (by positivity)
  have hr0 : 0 < r := by
    rcases Nat.eq_zero_or_pos r with rfl | h
    · rw [pow_zero, one_mul] at he; omega
    · exact h
  rw [v1] at vg
  rw [v1'] at vg'
  rw [r1, r1']
  exact same_mrBases ok ok' (by rw [hN]; exact h3) (by rw [hN']; exact h3') lm lm' (by rw [hN]; exact vm) (by rw [hN']; exact vm') lg lg' vg vg' (by rw [hN]; omega) (by omega)
    (by rw [hN']; omega) (by omega) hr0 primeTable 0 table_u32 (by rw [hN, hN']; exact h)

end


/-- `std::find` over the table : the pass that hits tells the number. -/
theorem sync_find (hv : View v) {w : Nat} (hw : 0 < w) {num num' : List U32} (hl : num.length = w) (hl' : num'.length = w) : ∀ (l : List Nat) (i : Nat),
    Sync v (fun b b' => b = b' ∧ (b = true → num = num')) (findL (32 * w) num i l) (findL (32 * w) num' i l)
  | [], i => by
    rw [findL, findL]
    exact Sync.bind (Same.sync hv (Same.emit rfl)) fun _ _ _ => Sync.pure ⟨rfl, fun h => (Bool.false_ne_true h).elim⟩
  | a :: l, i => by
    rw [findL, findL]
    obtain ⟨lo, -⟩ := bnOfU32_spec (32 * w) (by omega) (BitVec.ofNat 32 a)
    rw [bnN_mul32] at lo
    refine Sync.bind (Same.sync hv (Same.emit rfl)) fun _ _ _ => Sync.bind (Same.sync hv (Same.emit rfl)) fun _ _ _ => ?_
    have s1 : Same blank (fun x y : List U32 => x = bnOfU32 (32 * w) (BitVec.ofNat 32 a) ∧ y = bnOfU32 (32 * w) (BitVec.ofNat 32 a)) (bnOfU32L (32 * w) (BitVec.ofNat 32 a))
      (bnOfU32L (32 * w) (BitVec.ofNat 32 a)) := ⟨rfl, rfl, rfl⟩
    refine Sync.bind (Same.sync hv s1) fun o o' ho => ?_
    obtain ⟨rfl, rfl⟩ := ho
    refine Sync.bind (Same.sync hv (same_eq (hl.trans hl'.symm) rfl)) fun e e' he => ?_
    refine Sync.bind (Sync.branch hv e e') fun _ _ hee => ?_
    subst hee
    refine Sync.ite Iff.rfl (fun h => Sync.pure ⟨rfl, fun _ => ?_⟩) fun _ => sync_find hv hw hl hl' l (i + 1)
    have h1 := (bnEq_iff num _ (by omega)).mp (he.1.symm.trans h)
    have h2 := (bnEq_iff num' _ (by omega)).mp (he.2.symm.trans h)
    exact h1.trans h2.symm

/-- What the events of the whole test tell. -/
structure Told (v : Obs → Option Obs) (num num' : List U32) (b b' : Bool) : Prop where
  verdict : b = b'
  small : value num < 7920 ↔ value num' < 7920
  entry : b = true → value num < 7920 → num = num'
  odd : 7920 ≤ value num → (value num % 2 = 1 ↔ value num' % 2 = 1)
  all : v = some → 7920 ≤ value num → value num % 2 = 1 → num = num'
  order : 7920 ≤ value num → value num % 2 = 1 → ∀ r r' d d', value num - 1 = 2 ^ r * d → value num' - 1 = 2 ^ r' * d' → d % 2 = 1 → d' % 2 = 1 →
    r = r' ∧ (b = true → ∀ a ∈ primeTable, SameOrder (value num) (value num') a d d' r)

theorem exists_odd_part (n : Nat) (h : 0 < n) : ∃ r d, n = 2 ^ r * d ∧ d % 2 = 1 := by
  induction n using Nat.strong_induction_on with
  | _ n ih =>
    rcases Nat.mod_two_eq_zero_or_one n with h0 | h1
    · obtain ⟨r, d, e, hd⟩ := ih (n / 2) (by omega) (by omega)
      exact ⟨r + 1, d, by rw [pow_succ, show 2 ^ r * 2 * d = 2 * (2 ^ r * d) by ring, ← e]; omega, hd⟩
    · exact ⟨0, n, by simp, h1⟩

theorem sync_mrPrime (hv : View v) {w : Nat} (hw : 0 < w) {num num' : List U32} (hl : num.length = w) (hl' : num'.length = w) :
    Sync v (Told v num num') (mrPrimeL (32 * w) num) (mrPrimeL (32 * w) num') := by
  rw [mrPrimeL, mrPrimeL]
  obtain ⟨lo, vo⟩ := bnOfU32_spec (32 * w) (by omega) 7920#32
  rw [bnN_mul32] at lo
  rw [show BitVec.toNat 7920#32 = 7920 by rfl] at vo
  have s1 : Same blank (fun x y : List U32 => x = bnOfU32 (32 * w) 7920#32 ∧ y = bnOfU32 (32 * w) 7920#32) (bnOfU32L (32 * w) 7920#32) (bnOfU32L (32 * w) 7920#32) := ⟨rfl, rfl, rfl⟩
  refine Sync.bind (Same.sync hv s1) fun o o' ho => ?_
  obtain ⟨rfl, rfl⟩ := ho
  refine Sync.bind (Same.sync hv (same_lt (hl.trans hl'.symm) rfl)) fun e e' he => ?_
  refine Sync.bind (Sync.branch hv e e') fun _ _ hee => ?_
  subst hee
  have i1 : e = true ↔ value num < 7920 := by rw [he.1, bnLt, bnSub_borrow num _ (by omega), vo]
  have i2 : e = true ↔ value num' < 7920 := by rw [he.2, bnLt, bnSub_borrow num' _ (by omega), vo]
  refine Sync.ite Iff.rfl (fun h => ?_) fun h => ?_
  · refine (sync_find hv hw hl hl' primeTable 0).mono fun b b' hb => ⟨hb.1, i1.symm.trans i2, fun hb1 _ => hb.2 hb1, ?_, ?_, ?_⟩
    · intro h7; have := i1.mp h; omega
    · intro _ h7; have := i1.mp h; omega
    · intro h7; have := i1.mp h; omega
  · have n1 : 7920 ≤ value num := by rcases Nat.lt_or_ge (value num) 7920 with h1 | h1; exacts [absurd (i1.mpr h1) h, h1]
    have n2 : 7920 ≤ value num' := by rcases Nat.lt_or_ge (value num') 7920 with h1 | h1; exacts [absurd (i2.mpr h1) h, h1]
    have hbit : ∀ num : List U32, num.length = w → ∀ a, (bnBitL num 0).res = .ok a → (a = 0#32 ↔ ¬ value num % 2 = 1) := by
      intro num hl a ha
      rw [res_bit, bnBit_zero num (by omega)] at ha
      obtain rfl := Except.ok.inj ha
      by_cases ho : value num % 2 = 1
      · rw [if_pos ho]; exact ⟨fun h => absurd h (by decide), fun h => absurd ho h⟩
      · rw [if_neg ho]; exact ⟨fun _ => ho, fun _ => rfl⟩
    refine Sync.bind (Same.sync hv ((same_bit (hl.trans hl'.symm) 0).and (hbit num hl) (hbit num' hl'))) fun a a' ha => ?_
    refine Sync.bind (Sync.branch hv _ _) fun _ _ haa => ?_
    have haa : a = 0#32 ↔ a' = 0#32 := by rw [← beq_iff_eq (a := a), haa, beq_iff_eq]
    have hoo : value num % 2 = 1 ↔ value num' % 2 = 1 := not_iff_not.mp (ha.2.1.symm.trans (haa.trans ha.2.2))
    refine Sync.ite haa (fun h0 => ?_) fun h0 => ?_
    · have := ha.2.1.mp h0
      exact Sync.pure ⟨rfl, i1.symm.trans i2, fun h => (Bool.false_ne_true h).elim, fun _ => hoo, fun _ _ h => absurd h this, fun _ h => absurd h this⟩
    · have o1 : value num % 2 = 1 := by by_contra h; exact h0 (ha.2.1.mpr h)
      have o2 := hoo.mp o1
      obtain ⟨r, d, hd, ho⟩ := exists_odd_part (value num - 1) (by omega)
      obtain ⟨r', d', hd', ho'⟩ := exists_odd_part (value num' - 1) (by omega)
      refine (sync_mrBig hw hl hl' o1 o2 (by omega) (by omega) hd hd' ho ho' hv).mono fun b b' hb =>
        ⟨hb.1, i1.symm.trans i2, fun _ h => absurd h (by omega), fun _ => hoo, fun hs _ _ => hb.2.2.2 hs, fun _ _ R R' D D' h1 h2 h3 h4 => ?_⟩
      obtain ⟨rfl, rfl⟩ := two_pow_odd (hd.symm.trans h1) ho h3
      obtain ⟨rfl, rfl⟩ := two_pow_odd (hd'.symm.trans h2) ho' h4
      exact ⟨hb.2.1, hb.2.2.1⟩

theorem same_mrPrime {w : Nat} (hw : 0 < w) {num num' : List U32} (hl : num.length = w) (hl' : num'.length = w) (h7 : 7920 ≤ value num) (h7' : 7920 ≤ value num')
    (hodd : value num % 2 = 1) (hodd' : value num' % 2 = 1) {r d d' : Nat} (he : value num - 1 = 2 ^ r * d) (he' : value num' - 1 = 2 ^ r * d') (hd : d % 2 = 1) (hd' : d' % 2 = 1)
    (hz : zeros num.reverse = zeros num'.reverse) (h : ∀ a ∈ primeTable, SameOrder (value num) (value num') a d d' r) :
    Same blank (fun b b' => b = b') (mrPrimeL (32 * w) num) (mrPrimeL (32 * w) num') := by
  rw [mrPrimeL, mrPrimeL]
  obtain ⟨lo, vo⟩ := bnOfU32_spec (32 * w) (by omega) 7920#32
  rw [bnN_mul32] at lo
  rw [show BitVec.toNat 7920#32 = 7920 by rfl] at vo
  have s1 : Same blank (fun x y : List U32 => x = bnOfU32 (32 * w) 7920#32 ∧ y = bnOfU32 (32 * w) 7920#32) (bnOfU32L (32 * w) 7920#32) (bnOfU32L (32 * w) 7920#32) := ⟨rfl, rfl, rfl⟩
  refine Same.bind s1 fun o o' ho => ?_
  obtain ⟨rfl, rfl⟩ := ho
  refine Same.bind (same_lt (hl.trans hl'.symm) rfl) fun e e' he1 => ?_
  have i1 : ¬ e = true := by rw [he1.1, bnLt, bnSub_borrow num _ (by omega), vo]; omega
  have i2 : ¬ e' = true := by rw [he1.2, bnLt, bnSub_borrow num' _ (by omega), vo]; omega
  refine Same.bind (Same.emit (by rw [Bool.eq_false_iff.mpr i1, Bool.eq_false_iff.mpr i2])) fun _ _ _ => ?_
  rw [if_neg i1, if_neg i2]
  have hbit : ∀ num : List U32, num.length = w → value num % 2 = 1 → ∀ a, (bnBitL num 0).res = .ok a → a = 1#32 := by
    intro num hl ho a ha
    rw [res_bit, bnBit_zero num (by omega), if_pos ho] at ha
    exact (Except.ok.inj ha).symm
  refine Same.bind ((same_bit (hl.trans hl'.symm) 0).and (hbit num hl hodd) (hbit num' hl' hodd')) fun a a' ha => ?_
  obtain ⟨-, rfl, rfl⟩ := ha
  refine Same.bind (Same.emit rfl) fun _ _ _ => ?_
  rw [if_neg (by decide)]
  exact same_mrBig hw hl hl' hodd hodd' (by omega) (by omega) he he' hd hd' rfl hz h

/-! ### random_prime -/

/-- As many values are left in `testValues`. -/
def SameTests (s s' : RandState) : Prop := s.testValues.length = s'.testValues.length

theorem sameTests_next {s s' : RandState} (h : SameTests s s') : SameTests (randValue s).2 (randValue s').2 := by
  have key : ∀ s : RandState, (randValue s).2.testValues.length = s.testValues.length - 1 := by
    rintro ⟨tv, c⟩
    rcases tv.eq_nil_or_concat with rfl | ⟨l, x, rfl⟩
    · rw [randValue_tests]; rfl
    · rw [List.concat_eq_append]
      have : (randValue ⟨l ++ [x], c⟩).2 = ⟨(l ++ [x]).dropLast, c⟩ := by
        rw [randValue]
        dsimp only
        rw [List.getLast?_concat]
      rw [this, List.length_dropLast]
  rw [SameTests, key, key, show s.testValues.length = s'.testValues.length from h]

theorem same_randValue {s s' : RandState} (h : SameTests s s') : Same view (fun p p' => SameTests p.2 p'.2) (randValueL s) (randValueL s') := by
  rw [randValueL, randValueL]
  have h2 : s.testValues.length = s'.testValues.length := h
  have he : s.testValues.isEmpty = s'.testValues.isEmpty := by rw [Bool.eq_iff_iff, List.isEmpty_iff_length_eq_zero, List.isEmpty_iff_length_eq_zero, h2]
  refine Same.bind (Same.emit (by rw [he])) fun _ _ _ => ?_
  refine Same.ite (by rw [he]) (fun _ => Same.pure (sameTests_next h)) fun _ => Same.bind (Same.emit (by rw [h2])) fun _ _ _ => Same.pure (sameTests_next h)

theorem same_splitValue (b : Nat) : ∀ (per left i : Nat) (x x' : U64), Same view SL (splitValueL b i per left x) (splitValueL b i per left x')
  | 0, left, i, x, x' => by
    rw [splitValueL, splitValueL]
    exact Same.bind (Same.emit rfl) fun _ _ _ => Same.pure rfl
  | per + 1, 0, i, x, x' => by
    rw [splitValueL, splitValueL]
    exact Same.bind (Same.emit rfl) fun _ _ _ => Same.bind (Same.emit rfl) fun _ _ _ => Same.pure rfl
  | per + 1, left + 1, i, x, x' => by
    rw [splitValueL, splitValueL]
    refine Same.bind (Same.emit rfl) fun _ _ _ => Same.bind (Same.emit rfl) fun _ _ _ => Same.bind (Same.emit rfl) fun _ _ _ => ?_
    exact Same.bind (same_splitValue b per left (i + 1) _ _) fun r r' hr => Same.pure (by rw [SL, List.length_cons, List.length_cons, show r.length = r'.length from hr])

theorem same_genRandom (b per : Nat) (left : Nat) : ∀ (i : Nat) (s s' : RandState), SameTests s s' →
    Same view (fun p p' => SL p.1 p'.1 ∧ SameTests p.2 p'.2) (genRandomL b per i left s) (genRandomL b per i left s') := by
  induction left using Nat.strong_induction_on with
  | _ left ih =>
    intro i s s' h
    rw [genRandomL, genRandomL]
    by_cases hc : left = 0 ∨ per = 0
    · rw [dif_pos hc, dif_pos hc]
      exact Same.bind (Same.emit rfl) fun _ _ _ => Same.pure ⟨rfl, h⟩
    · rw [dif_neg hc, dif_neg hc]
      refine Same.bind (Same.emit rfl) fun _ _ _ => Same.bind (same_randValue h) fun p p' hp => ?_
      refine Same.bind (same_splitValue b per left i _ _) fun x x' hx => ?_
      refine Same.bind (ih (left - per) (by omega) _ _ _ hp) fun y y' hy => Same.pure ⟨?_, hy.2⟩
      rw [SL, List.length_append, List.length_append, show x.length = x'.length from hx, show y.1.length = y'.1.length from hy.1]

theorem same_primeCandidate (K : Nat) (strict : Bool) {s s' : RandState} (h : SameTests s s') :
    Same view (fun p p' => SL p.1 p'.1 ∧ SameTests p.2 p'.2) (primeCandidateL K strict s) (primeCandidateL K strict s') := by
  rw [primeCandidateL, primeCandidateL]
  refine Same.bind (same_genRandom 32 2 _ 0 s s' h) fun p p' hp => Same.bind (same_setBit hp.1 0) fun c c' hc => Same.bind (same_setBit hc _) fun c c' hc => ?_
  refine Same.ite Iff.rfl (fun _ => Same.ite Iff.rfl (fun _ => ⟨rfl, rfl⟩) fun _ => ?_) fun _ => Same.pure ⟨hc, hp.2⟩
  exact Same.bind (same_setBit hc _) fun c c' hc => Same.pure ⟨hc, hp.2⟩

/-- More rounds do not matter once a prime was found. -/
theorem randomPrime_more (K : Nat) (strict : Bool) : ∀ (fuel k : Nat) (s : RandState) (p : List U32 × RandState), (randomPrimeL K strict fuel s).res = .ok (some p) →
    randomPrimeL K strict (fuel + k) s = randomPrimeL K strict fuel s
  | 0, k, s, p, h => by
    rw [randomPrimeL, res_pure] at h
    exact nomatch Except.ok.inj h
  | fuel + 1, k, s, p, h => by
    rw [show fuel + 1 + k = fuel + k + 1 by omega, randomPrimeL, randomPrimeL] at *
    rcases h1 : primeCandidateL K strict s with ⟨c, t⟩
    rw [h1] at h
    cases c with
    | error e => rfl
    | ok c =>
      rcases h2 : mrPrimeL K c.1 with ⟨b, t2⟩
      cases b with
      | error e => simp [Bind.bind, Leak.seq, h2]; rfl
      | ok b =>
        cases b with
        | true => simp [Bind.bind, Leak.seq, h2]; rfl
        | false =>
          have h3 : (randomPrimeL K strict fuel c.2).res = .ok (some p) := by
            simpa [Bind.bind, Leak.seq, h2, emit, Leak.res, Leak.trace] using h
          simp [Bind.bind, Leak.seq, h2, emit, randomPrime_more K strict fuel k c.2 p h3]
          rfl

theorem sync_randomPrime (hv : View v) {w : Nat} (hw : 0 < w) (strict : Bool) : ∀ (fuel : Nat) (s s' : RandState), SameTests s s' →
    Sync v (fun o o' => match o, o' with
      | none, none => True
      | some p, some p' => Told v p.1 p'.1 true true ∧ SameTests p.2 p'.2
      | _, _ => False) (randomPrimeL (32 * w) strict fuel s) (randomPrimeL (32 * w) strict fuel s')
  | 0, s, s', h => by
    rw [randomPrimeL, randomPrimeL]
    exact Sync.pure trivial
  | fuel + 1, s, s', h => by
    rw [randomPrimeL, randomPrimeL]
    have hlen : ∀ s : RandState, ∀ p, (primeCandidateL (32 * w) strict s).res = .ok p → p.1.length = w := by
      intro s p hp
      obtain ⟨c, s1, e, l, -⟩ := candidate_spec w hw strict s
      rw [res_primeCandidate, e] at hp
      obtain rfl := Except.ok.inj hp
      exact l
    refine Sync.bind (Same.sync hv ((same_primeCandidate (32 * w) strict h).and (hlen s) (hlen s'))) fun p p' hp => ?_
    refine Sync.bind (sync_mrPrime hv hw hp.2.1 hp.2.2) fun b b' hb => ?_
    have hbb := hb.verdict
    subst hbb
    refine Sync.bind (Same.sync hv (Same.emit rfl)) fun _ _ _ => ?_
    refine Sync.ite Iff.rfl (fun h => ?_) fun _ => sync_randomPrime hv hw strict fuel _ _ hp.1.2
    subst h
    exact Sync.pure ⟨hb, hp.1.2⟩

end Verif.Proof
