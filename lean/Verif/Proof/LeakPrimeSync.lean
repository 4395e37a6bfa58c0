import Verif.Proof.LeakSync
import Verif.Proof.Prime

/-! What the events of the primality test reveal. -/

namespace Verif.Proof

open Verif.Model Verif.Spec Verif.Props

variable {v : Obs → Option Obs}

/-! ### include/caligo/mont.h -/

theorem convert_len (bits k : Nat) (a b : List U32) : Same blank (Len (bnN bits)) (bnConvertL bits k a) (bnConvertL bits k b) := by
  refine ((same_convert bits k a b).and (P := fun p => p.length = bnN bits) (Q := fun p => p.length = bnN bits) ?_ ?_).mono fun _ _ h => h.2
  · intro p hp; rw [res_convert] at hp; rw [← Except.ok.inj hp, bnConvert, List.length_map, List.length_range]
  · intro p hp; rw [res_convert] at hp; rw [← Except.ok.inj hp, bnConvert, List.length_map, List.length_range]

/-- After the loop. -/
def afterNorm (bits k : Nat) (c : List U32) (o : Option (List U32 × Nat)) : Leak (List U32) :=
  match o with
  | none => Leak.ofOut (.error .diverges)
  | some (s, shift) => do
    let c ← reduceLoopL (shift * 32 + 1) c s
    bnConvertL k bits c

theorem naiveReduce_eq (bits k : Nat) (c p : List U32) : bnNaiveReduceL bits k c p = bnConvertL bits k p >>= fun s => normLoopL s.length s 0 >>= afterNorm bits k c := rfl

theorem same_afterNorm {m : Nat} (bits k : Nat) {c c' : List U32} (hc : Len m c c') {o o' : Option (List U32 × Nat)} (h : SameNorm m o o') :
    Same blank (Len (bnN k)) (afterNorm bits k c o) (afterNorm bits k c' o') := by
  match o, o', h with
  | none, none, _ => exact ⟨rfl, rfl⟩
  | some (s, n), some (s', n'), h =>
    obtain ⟨h1, h2⟩ := h
    obtain rfl : n = n' := h2
    exact Same.bind (same_reduceLoop _ hc h1) fun _ _ _ => convert_len _ _ _ _

theorem sync_naiveReduce (hv : View v) (bits k : Nat) {c c' : List U32} (hc : Len (bnN bits) c c') (p p' : List U32) :
    Sync v (Len (bnN k)) (bnNaiveReduceL bits k c p) (bnNaiveReduceL bits k c' p') := by
  rw [naiveReduce_eq, naiveReduce_eq]
  refine Sync.bind (Same.sync hv (convert_len bits k p p')) fun s s' h => ?_
  rw [h.1, h.2]
  exact Sync.bind (sync_normLoop hv _ _ _ _ h) fun _ _ h' => Same.sync hv (same_afterNorm bits k hc h')

theorem same_naiveReduce (bits k : Nat) {c c' : List U32} (hc : Len (bnN bits) c c') (p p' : List U32) (hz : zeros (bnConvert bits k p).reverse = zeros (bnConvert bits k p').reverse) :
    Same blank (Len (bnN k)) (bnNaiveReduceL bits k c p) (bnNaiveReduceL bits k c' p') := by
  rw [naiveReduce_eq, naiveReduce_eq]
  refine Same.bind ((convert_len bits k p p').and (P := fun s => s = bnConvert bits k p) (Q := fun s => s = bnConvert bits k p') ?_ ?_) fun s s' h => ?_
  · intro s hs; rw [res_convert] at hs; exact (Except.ok.inj hs).symm
  · intro s hs; rw [res_convert] at hs; exact (Except.ok.inj hs).symm
  · obtain ⟨h1, h2, h3⟩ := h
    rw [h1.1, h1.2]
    exact Same.bind (same_normLoop _ _ _ _ h1 (by rw [h2, h3]; exact hz)) fun _ _ h' => same_afterNorm bits k hc h'

theorem same_recInv (bits : Nat) : ∀ (A A' : List U32), SL A A' → Same blank SL (recInvL bits A) (recInvL bits A') := by
  induction bits using Nat.strong_induction_on with
  | _ bits ih =>
    intro A A' hA
    rw [recInvL, recInvL]
    by_cases h : 1 < bnN bits
    · rw [dif_pos h, dif_pos h]
      exact Same.bind (same_slice _ hA _) fun _ _ hs => Same.bind (ih _ (recInv_width_lt h) _ _ hs) fun _ _ _ => Same.bind (same_convert _ _ _ _) fun _ _ hr =>
        Same.bind (same_mul _ hr hA) fun _ _ ha => Same.bind (same_slice _ ha _) fun _ _ hb => Same.bind (same_ofU32 _ _ _) fun _ _ ht =>
        Same.bind (same_sub ht hb) fun _ _ hd => Same.bind (same_mul _ hr hd) fun _ _ _ => same_convert _ _ _ _
    · rw [dif_neg h, dif_neg h]
      exact Same.bind (Same.rd hA _) fun _ _ _ => Same.bind (Same.loop 4 (R := fun _ _ => True) trivial fun _ _ _ _ => Same.bind (Same.rd hA _) fun _ _ _ => Same.pure trivial) fun _ _ _ =>
        same_ofU32 _ _ _

/-- The first part of `MontgomeryState` : the number `R`. -/
theorem same_montR (K : Nat) : Same blank (Len (bnN (2 * K + 1))) (bnOfU32L (2 * K + 1) 0#32 >>= fun R => bnSetBitL R (2 * K)) (bnOfU32L (2 * K + 1) 0#32 >>= fun R => bnSetBitL R (2 * K)) := by
  refine Same.bind (R := Len (bnN (2 * K + 1))) ?_ fun a b h => ?_
  · refine ⟨rfl, ?_⟩
    show Len (bnN (2 * K + 1)) (bnOfU32 (2 * K + 1) 0#32) (bnOfU32 (2 * K + 1) 0#32)
    exact ⟨by rw [bnOfU32, List.length_set, List.length_replicate], by rw [bnOfU32, List.length_set, List.length_replicate]⟩
  · exact Same.bind (Same.rd h.sl _) fun _ _ _ => (Same.wr' h.sl _ _ _).mono fun _ _ h' => ⟨h'.1.trans h.1, h'.2.trans h.2⟩

/-- The end of `MontgomeryState`. -/
def montEnd (K : Nat) (N Ninv R2MN : List U32) : Leak MontState := do
  let c ← bnConvertL (2 * K) K R2MN
  let R1MN ← redcL K N Ninv c
  let sq ← bnMulL K R2MN R2MN
  let R3MN ← redcL K N Ninv sq
  return ⟨N, Ninv, R1MN, R2MN, R3MN⟩

/-- The start of `MontgomeryState`. -/
def montStart (K : Nat) (N : List U32) : Leak (List U32) := do
  let inv ← recInvL K N
  let neg ← negL 0 inv
  let one ← bnOfU32L K 1#32
  let Ninv ← bnAddL neg one
  return Ninv.2

theorem bind_assoc {α β γ : Type} (x : Leak α) (f : α → Leak β) (g : β → Leak γ) : x >>= f >>= g = x >>= fun a => f a >>= g := by
  obtain ⟨xr, xt⟩ := x
  cases xr with
  | error e => rfl
  | ok a =>
    show Leak.seq (Leak.seq (.ok a, xt) f) g = Leak.seq (.ok a, xt) fun a => Leak.seq (f a) g
    rcases hf : f a with ⟨fr, ft⟩
    cases fr with
    | error e => simp only [Leak.seq, hf]; rfl
    | ok b => simp only [Leak.seq, hf, List.append_assoc]; rfl

theorem pure_bind {α β : Type} (a : α) (f : α → Leak β) : (pure a : Leak α) >>= f = f a := by
  show Leak.seq (.ok a, []) f = f a
  simp only [Leak.seq, List.nil_append]
  rfl

theorem montNewL_eq (K : Nat) (N : List U32) : montNewL K N = montStart K N >>= fun I => (bnOfU32L (2 * K + 1) 0#32 >>= fun R => bnSetBitL R (2 * K)) >>= fun R =>
    bnNaiveReduceL (2 * K + 1) K R N >>= montEnd K N I := by
  rw [montNewL, montStart]
  simp only [bind_assoc, pure_bind]
  rfl

theorem same_montStart (K : Nat) {N N' : List U32} (h : SL N N') : Same blank SL (montStart K N) (montStart K N') :=
  Same.bind (same_recInv K _ _ h) fun _ _ hi => Same.bind (same_neg _ _ _ hi) fun _ _ hn => Same.bind (same_ofU32 _ _ _) fun _ _ ho => Same.bind (same_add hn ho) fun _ _ ha => Same.pure ha

theorem same_montEnd (K : Nat) {N N' I I' R R' : List U32} (hN : Len (bnN K) N N') (hI : SL I I') (hR : Len (bnN K) R R') :
    Same blank (SameMont K) (montEnd K N I R) (montEnd K N' I' R') :=
  Same.bind (same_convert _ _ _ _) fun _ _ hc => Same.bind (same_redc K hN hI hc) fun _ _ _ => Same.bind (same_mul _ hR.sl hR.sl) fun _ _ hs => Same.bind (same_redc K hN hI hs) fun _ _ _ =>
    Same.pure ⟨hN, hI, hR.sl⟩

theorem sync_montNew (hv : View v) (K : Nat) {N N' : List U32} (hN : Len (bnN K) N N') : Sync v (SameMont K) (montNewL K N) (montNewL K N') := by
  rw [montNewL_eq, montNewL_eq]
  exact Sync.bind (Same.sync hv (same_montStart K hN.sl)) fun _ _ hI => Sync.bind (Same.sync hv (same_montR K)) fun _ _ hR => Sync.bind (sync_naiveReduce hv _ _ hR _ _) fun _ _ h2 =>
    Same.sync hv (same_montEnd K hN hI h2)

theorem same_montNew (K : Nat) {N N' : List U32} (hN : Len (bnN K) N N') (hz : zeros (bnConvert (2 * K + 1) K N).reverse = zeros (bnConvert (2 * K + 1) K N').reverse) :
    Same blank (SameMont K) (montNewL K N) (montNewL K N') := by
  rw [montNewL_eq, montNewL_eq]
  exact Same.bind (same_montStart K hN.sl) fun _ _ hI => Same.bind (same_montR K) fun _ _ hR => Same.bind (same_naiveReduce _ _ hR _ _ hz) fun _ _ h2 => same_montEnd K hN hI h2

theorem zeros_append : ∀ (n : Nat) (l : List U32), zeros (List.replicate n 0#32 ++ l) = n + zeros l
  | 0, l => by rw [Nat.zero_add]; rfl
  | n + 1, l => by rw [List.replicate_succ, List.cons_append, zeros_cons, if_pos rfl, zeros_append n l]; omega

/-- The words above the number count as zeros. -/
theorem convert_zeros (w : Nat) (N : List U32) (h : N.length = w) : zeros (bnConvert (2 * (32 * w) + 1) (32 * w) N).reverse = w + 1 + zeros N.reverse := by
  have e : bnConvert (2 * (32 * w) + 1) (32 * w) N = N ++ List.replicate (w + 1) 0#32 := by
    have hn : bnN (2 * (32 * w) + 1) = w + (w + 1) := by rw [bnN]; omega
    rw [bnConvert, hn]
    refine List.ext_getElem (by rw [List.length_map, List.length_range, List.length_append, List.length_replicate, h]) fun i h1 h2 => ?_
    rw [List.getElem_map, List.getElem_range, show min (32 * w) (2 * (32 * w) + 1) / 32 = w by omega]
    by_cases hi : i < w
    · rw [if_pos hi, List.getElem_append_left (by omega), List.getD_eq_getElem _ _ (by omega)]
    · rw [if_neg hi, List.getElem_append_right (by omega), List.getElem_replicate]
  rw [e, List.reverse_append, List.reverse_replicate, zeros_append]

/-! ### include/caligo/random_prime.h -/

/-- The number of zero bits at the end of `num - 1` is revealed. -/
theorem sync_oddPart (hv : View v) : ∀ (k : Nat) (d d' : List U32) (r : Nat), SL d d' → Sync v (fun p p' => SL p.1 p'.1 ∧ p.2 = p'.2) (oddPartL k d r) (oddPartL k d' r)
  | 0, d, d', r, h => by
    rw [oddPartL, oddPartL]
    refine Sync.bind (Same.sync hv (same_bit h 0)) fun a b _ => Sync.bind (Sync.branch hv _ _) fun _ _ e => ?_
    have e : (a == 0#32) = (b == 0#32) := e
    refine Sync.ite (by rw [← beq_iff_eq, e, beq_iff_eq]) (fun _ => Same.sync hv ⟨rfl, rfl⟩) fun _ => Sync.pure ⟨h, rfl⟩
  | k + 1, d, d', r, h => by
    rw [oddPartL, oddPartL]
    refine Sync.bind (Same.sync hv (same_bit h 0)) fun a b _ => Sync.bind (Sync.branch hv _ _) fun _ _ e => ?_
    have e : (a == 0#32) = (b == 0#32) := e
    refine Sync.ite (by rw [← beq_iff_eq, e, beq_iff_eq]) (fun _ => ?_) fun _ => Sync.pure ⟨h, rfl⟩
    exact Sync.bind (Same.sync hv (same_shr1 h)) fun _ _ h' => sync_oddPart hv k _ _ _ h'

section

variable {w : Nat} {st st' : MontState} (ok : MontOk w st) (ok' : MontOk w st')

include ok ok'

theorem mont_same : SameMont (32 * w) st st' :=
  ⟨⟨by rw [bnN_mul32]; exact ok.lN, by rw [bnN_mul32]; exact ok'.lN⟩, ok.lI.trans ok'.lI.symm, ok.l2.trans ok'.l2.symm⟩

/-- Squaring keeps what is known about the two values. -/
theorem same_square {x x' : List U32} {X : ZMod (value st.N)} {X' : ZMod (value st'.N)} (lx : x.length = w) (lx' : x'.length = w)
    (hX : (value x : ZMod (value st.N)) = X * 2 ^ (32 * w)) (hX' : (value x' : ZMod (value st'.N)) = X' * 2 ^ (32 * w)) :
    Same blank (fun y y' => (y.length = w ∧ (value y : ZMod (value st.N)) = X ^ 2 * 2 ^ (32 * w)) ∧ (y'.length = w ∧ (value y' : ZMod (value st'.N)) = X' ^ 2 * 2 ^ (32 * w)))
      (montMulL (32 * w) st x x) (montMulL (32 * w) st' x' x') := by
  have key : ∀ {st : MontState} (_ : MontOk w st) {x : List U32} {X : ZMod (value st.N)}, x.length = w → (value x : ZMod (value st.N)) = X * 2 ^ (32 * w) →
      ∀ y, (montMulL (32 * w) st x x).res = .ok y → y.length = w ∧ (value y : ZMod (value st.N)) = X ^ 2 * 2 ^ (32 * w) := by
    intro st ok x X lx hX y hy
    obtain ⟨y', e1, l1, v1⟩ := montMul_zmod ok x x lx lx
    rw [res_montMul, e1] at hy
    obtain rfl := Except.ok.inj hy
    refine ⟨l1, ?_⟩
    apply (isUnit_R ok).mul_right_cancel
    rw [v1, hX]; ring
  exact ((same_montMul (32 * w) (mont_same ok ok') (lx.trans lx'.symm) (lx.trans lx'.symm)).and (key ok lx hX) (key ok' lx' hX')).mono fun _ _ h => h.2

/-- The comparison with `m`, which is not zero and below the modulus. -/
theorem same_compare {x x' m m' : List U32} {X : ZMod (value st.N)} {X' : ZMod (value st'.N)} (lx : x.length = w) (lx' : x'.length = w) (lm : m.length = w) (lm' : m'.length = w)
    (hX : (value x : ZMod (value st.N)) = X * 2 ^ (32 * w)) (hX' : (value x' : ZMod (value st'.N)) = X' * 2 ^ (32 * w)) (hm : value m < value st.N) (hm0 : value m ≠ 0)
    (hm' : value m' < value st'.N) (hm0' : value m' ≠ 0) :
    Same blank (fun y y' => SL y m ∧ SL y' m' ∧ (bnEq y m = true ↔ X = value m) ∧ (bnEq y' m' = true ↔ X' = value m')) (montToL (32 * w) st x) (montToL (32 * w) st' x') := by
  have key : ∀ {st : MontState} (_ : MontOk w st) {x m : List U32} {X : ZMod (value st.N)}, x.length = w → m.length = w → (value x : ZMod (value st.N)) = X * 2 ^ (32 * w) →
      value m < value st.N → value m ≠ 0 → ∀ y, (montToL (32 * w) st x).res = .ok y → SL y m ∧ (bnEq y m = true ↔ X = value m) := by
    intro st ok x m X lx lm hX hm hm0 y hy
    obtain ⟨y', e1, l1, v1, le⟩ := montTo_zmod ok x lx X hX
    rw [res_montTo, e1] at hy
    obtain rfl := Except.ok.inj hy
    refine ⟨l1.trans lm.symm, ?_⟩
    rw [bnEq_iff y' m (by omega), ← v1, eq_of_zmod (by omega) le hm hm0]
    exact ⟨fun h => by rw [h], fun h => value_inj (by omega) h⟩
  exact ((same_montTo (32 * w) (mont_same ok ok') x x').and (key ok lx lm hX hm hm0) (key ok' lx' lm' hX' hm' hm0')).mono fun _ _ h => ⟨h.2.1.1, h.2.2.1, h.2.1.2, h.2.2.2⟩

variable (hn : 2 < value st.N) (hn' : 2 < value st'.N) {m m' : List U32} (lm : m.length = w) (lm' : m'.length = w) (vm : value m = value st.N - 1) (vm' : value m' = value st'.N - 1)

include hn hn' lm lm' vm vm'

/-- The loop of `miller_rabin_one_loop` reveals after how many squarings -1 appears. -/
theorem sync_mrLoop (hv : View v) : ∀ (k : Nat) (x x' : List U32) (X : ZMod (value st.N)) (X' : ZMod (value st'.N)), x.length = w → x'.length = w →
    (value x : ZMod (value st.N)) = X * 2 ^ (32 * w) → (value x' : ZMod (value st'.N)) = X' * 2 ^ (32 * w) →
    Sync v (fun b b' => b = b' ∧ ∀ s, 1 ≤ s → s ≤ k → (X ^ (2 ^ s) = -1 ↔ X' ^ (2 ^ s) = -1)) (mrLoopL (32 * w) st m k x) (mrLoopL (32 * w) st' m' k x')
  | 0, x, x', X, X', _, _, _, _ => by
    rw [mrLoopL, mrLoopL]
    exact Sync.bind (Same.sync hv (Same.emit rfl)) fun _ _ _ => Sync.pure ⟨rfl, fun s h1 h2 => by omega⟩
  | k + 1, x, x', X, X', lx, lx', hX, hX' => by
    rw [mrLoopL, mrLoopL]
    refine Sync.bind (Same.sync hv (Same.emit rfl)) fun _ _ _ => Sync.bind (Same.sync hv (same_square ok ok' lx lx' hX hX')) fun y y' hy => ?_
    obtain ⟨⟨ly, vy⟩, ly', vy'⟩ := hy
    refine Sync.bind (Same.sync hv (same_compare ok ok' ly ly' lm lm' vy vy' (by omega) (by omega) (by omega) (by omega))) fun z z' hz => ?_
    obtain ⟨lz, lz', bz, bz'⟩ := hz
    rw [vm, cast_pred (by omega)] at bz
    rw [vm', cast_pred (by omega)] at bz'
    refine Sync.bind (Same.sync hv (same_eq (lz.trans (lm.trans (lm'.symm.trans lz'.symm))) (lm.trans lm'.symm))) fun e e' he => ?_
    obtain ⟨rfl, rfl⟩ := he
    refine Sync.bind (Sync.branch hv _ _) fun _ _ hb => ?_
    have hb : X ^ 2 = -1 ↔ X' ^ 2 = -1 := by rw [← bz, ← bz', hb]
    have fin : ∀ {n : Nat} (_ : 2 < n) (Z : ZMod n), Z ^ 2 = -1 → ∀ s, 2 ≤ s → Z ^ (2 ^ s) ≠ -1 := by
      intro n hn Z hZ s hs
      obtain ⟨i, rfl⟩ : ∃ i, s = i + 2 := ⟨s - 2, by omega⟩
      rw [pow_add, show 2 ^ i * 2 ^ 2 = 2 * (2 * 2 ^ i) by ring, pow_mul, hZ, pow_mul, neg_one_sq, one_pow]
      haveI : Fact (2 < n) := ⟨hn⟩
      exact (ZMod.neg_one_ne_one).symm
    refine Sync.ite (by rw [bz, bz', hb]) (fun hc => Sync.pure ⟨rfl, fun s h1 h2 => ?_⟩) fun hc => ?_
    · have h3 := bz.mp hc
      have h4 := hb.mp h3
      rcases Nat.eq_or_lt_of_le h1 with rfl | h5
      · rw [pow_one]; exact hb
      · exact ⟨fun h => absurd h (fin hn X h3 s h5), fun h => absurd h (fin hn' X' h4 s h5)⟩
    · refine (sync_mrLoop hv k y y' (X ^ 2) (X' ^ 2) ly ly' vy vy').mono fun b b' h => ⟨h.1, fun s h1 h2 => ?_⟩
      rcases Nat.eq_or_lt_of_le h1 with rfl | h5
      · rw [pow_one]; exact hb
      · have := h.2 (s - 1) (by omega) (by omega)
        rw [← pow_mul, ← pow_mul, ← pow_succ', show s - 1 + 1 = s by omega] at this
        exact this

/-- If -1 appears after the same number of squarings, the events are the same. -/
theorem same_mrLoop : ∀ (k : Nat) (x x' : List U32) (X : ZMod (value st.N)) (X' : ZMod (value st'.N)), x.length = w → x'.length = w →
    (value x : ZMod (value st.N)) = X * 2 ^ (32 * w) → (value x' : ZMod (value st'.N)) = X' * 2 ^ (32 * w) →
    (∀ s, 1 ≤ s → s ≤ k → (X ^ (2 ^ s) = -1 ↔ X' ^ (2 ^ s) = -1)) → Same blank (fun b b' => b = b') (mrLoopL (32 * w) st m k x) (mrLoopL (32 * w) st' m' k x')
  | 0, x, x', X, X', _, _, _, _, _ => by
    rw [mrLoopL, mrLoopL]
    exact Same.bind (Same.emit rfl) fun _ _ _ => Same.pure rfl
  | k + 1, x, x', X, X', lx, lx', hX, hX', h => by
    rw [mrLoopL, mrLoopL]
    refine Same.bind (Same.emit rfl) fun _ _ _ => Same.bind (same_square ok ok' lx lx' hX hX') fun y y' hy => ?_
    obtain ⟨⟨ly, vy⟩, ly', vy'⟩ := hy
    refine Same.bind (same_compare ok ok' ly ly' lm lm' vy vy' (by omega) (by omega) (by omega) (by omega)) fun z z' hz => ?_
    obtain ⟨lz, lz', bz, bz'⟩ := hz
    rw [vm, cast_pred (by omega)] at bz
    rw [vm', cast_pred (by omega)] at bz'
    refine Same.bind (same_eq (lz.trans (lm.trans (lm'.symm.trans lz'.symm))) (lm.trans lm'.symm)) fun e e' he => ?_
    obtain ⟨rfl, rfl⟩ := he
    have h1 := h 1 (le_refl _) (by omega)
    rw [pow_one] at h1
    have hb : bnEq z m = bnEq z' m' := by rw [Bool.eq_iff_iff, bz, bz', h1]
    refine Same.bind (Same.emit (by rw [hb])) fun _ _ _ => Same.ite (by rw [hb]) (fun _ => Same.pure rfl) fun _ => ?_
    refine same_mrLoop k y y' (X ^ 2) (X' ^ 2) ly ly' vy vy' fun s h1 h2 => ?_
    rw [← pow_mul, ← pow_mul, ← pow_succ']
    exact h (s + 1) (by omega) (by omega)

omit hn hn' lm lm' vm vm' in
/-- `exp` reveals the exponent to an observer who sees everything. -/
theorem sync_exp (hv : View v) {b b' e e' : List U32} {A : ZMod (value st.N)} {A' : ZMod (value st'.N)} (lb : b.length = w) (lb' : b'.length = w) (le : e.length = w) (le' : e'.length = w)
    (hA : (value b : ZMod (value st.N)) = A * 2 ^ (32 * w)) (hA' : (value b' : ZMod (value st'.N)) = A' * 2 ^ (32 * w)) :
    Same blank (fun x x' => (x.length = w ∧ (value x : ZMod (value st.N)) = A ^ value e * 2 ^ (32 * w)) ∧ (x'.length = w ∧ (value x' : ZMod (value st'.N)) = A' ^ value e' * 2 ^ (32 * w)))
      (montExpL (32 * w) st b e) (montExpL (32 * w) st' b' e') ∧
    Sync v (fun x x' => ((x.length = w ∧ (value x : ZMod (value st.N)) = A ^ value e * 2 ^ (32 * w)) ∧ (x'.length = w ∧ (value x' : ZMod (value st'.N)) = A' ^ value e' * 2 ^ (32 * w))) ∧
      (v = some → e = e')) (montExpL (32 * w) st b e) (montExpL (32 * w) st' b' e') := by
  have key : ∀ {st : MontState} (_ : MontOk w st) {b e : List U32} {A : ZMod (value st.N)}, b.length = w → e.length = w → (value b : ZMod (value st.N)) = A * 2 ^ (32 * w) →
      ∀ y, (montExpL (32 * w) st b e).res = .ok y → y.length = w ∧ (value y : ZMod (value st.N)) = A ^ value e * 2 ^ (32 * w) := by
    intro st ok b e A lb le hA y hy
    obtain ⟨x, e4, l4, v4⟩ := montExp_zmod ok b e lb le _ hA
    rw [res_montExp, e4] at hy
    obtain rfl := Except.ok.inj hy
    exact ⟨l4, v4⟩
  have lN : ∀ {b b' : List U32}, b.length = w → b'.length = w → Len (bnN (32 * w)) b b' := fun h h' => ⟨by rw [bnN_mul32]; exact h, by rw [bnN_mul32]; exact h'⟩
  have hs := same_montExp (32 * w) (mont_same ok ok') (lN lb lb') (le.trans le'.symm)
  have h1 := (hs.and (key ok lb le hA) (key ok' lb' le' hA')).mono fun _ _ h => h.2
  refine ⟨h1, fun s t h => ?_⟩
  obtain ⟨h2, h3⟩ := Same.sync hv h1 s t h
  refine ⟨h2, ?_⟩
  cases hx : (montExpL (32 * w) st b e).res <;> cases hy : (montExpL (32 * w) st' b' e').res <;> rw [hx, hy] at h3
  · exact h3
  · exact h3
  · exact h3
  · refine ⟨h3, fun hsome => ?_⟩
    subst hsome
    rw [List.filterMap_some, List.filterMap_some, h2] at h
    exact exponent_of_trace (mont_same ok ok') (lN lb lb') le le' hx (List.append_cancel_right h)

/-- What the events of one base say: whether the power is one, and if not, after how many squarings it is -1. -/
def SameOrder (n n' a d d' r : Nat) : Prop := ((a : ZMod n) ^ d = 1 ↔ (a : ZMod n') ^ d' = 1) ∧ ∀ s < r, ((a : ZMod n) ^ (2 ^ s * d) = -1 ↔ (a : ZMod n') ^ (2 ^ s * d') = -1)

section

variable {g g' : List U32} {d d' a r : Nat} (lg : g.length = w) (lg' : g'.length = w) (hg : (value g : ZMod (value st.N)) = (d : ZMod (value st.N)) * 2 ^ (32 * w))
  (hg' : (value g' : ZMod (value st'.N)) = (d' : ZMod (value st'.N)) * 2 ^ (32 * w)) (hd : d < value st.N) (hd0 : 0 < d) (hd' : d' < value st'.N) (hd0' : 0 < d') (ha : a < 2 ^ 32)

include lg lg' hg hg' hd hd0 hd' hd0' ha

omit lm lm' vm vm' in
theorem same_expStart : Same blank (fun p p' : List U32 × List U32 =>
      (p.1.length = w ∧ (value p.1 : ZMod (value st.N)) = a * 2 ^ (32 * w) ∧ p.2.length = w ∧ value p.2 = d) ∧
      (p'.1.length = w ∧ (value p'.1 : ZMod (value st'.N)) = a * 2 ^ (32 * w) ∧ p'.2.length = w ∧ value p'.2 = d'))
    (bnOfU32L (32 * w) (BitVec.ofNat 32 a) >>= fun bna => montOfL (32 * w) st bna >>= fun b => montToL (32 * w) st g >>= fun e => pure (b, e))
    (bnOfU32L (32 * w) (BitVec.ofNat 32 a) >>= fun bna => montOfL (32 * w) st' bna >>= fun b => montToL (32 * w) st' g' >>= fun e => pure (b, e)) := by
  have h := Same.bind (same_ofU32 (view := blank) (32 * w) (BitVec.ofNat 32 a) (BitVec.ofNat 32 a)) fun x y hxy => Same.bind (same_montOf (32 * w) (mont_same ok ok') hxy) fun b b' _ =>
    Same.bind (same_montTo (32 * w) (mont_same ok ok') g g') fun e e' _ => Same.pure (R := fun _ _ => True) (a := (b, e)) (b := (b', e')) trivial
  have key : ∀ {st : MontState} (_ : MontOk w st) {g : List U32} {d : Nat}, 2 < value st.N → g.length = w → (value g : ZMod (value st.N)) = (d : ZMod (value st.N)) * 2 ^ (32 * w) → d < value st.N →
      0 < d → ∀ p : List U32 × List U32, (bnOfU32L (32 * w) (BitVec.ofNat 32 a) >>= fun bna => montOfL (32 * w) st bna >>= fun b => montToL (32 * w) st g >>= fun e => pure (b, e)).res = .ok p →
      p.1.length = w ∧ (value p.1 : ZMod (value st.N)) = a * 2 ^ (32 * w) ∧ p.2.length = w ∧ value p.2 = d := by
    intro st ok g d hn lg hg hd hd0 p hp
    have hw := ok.hw
    obtain ⟨l1, v1⟩ := bnOfU32_spec (32 * w) (by omega) (BitVec.ofNat 32 a)
    rw [bnN_mul32] at l1
    rw [BitVec.toNat_ofNat, Nat.mod_eq_of_lt ha] at v1
    obtain ⟨b, e2, l2, v2⟩ := montOf_zmod ok _ l1
    rw [v1] at v2
    obtain ⟨e, e3, l3, v3, le3⟩ := montTo_zmod ok g lg _ hg
    have ve : value e = d := (eq_of_zmod (by omega) le3 hd (by omega)).mp v3
    rw [res_bind, res_ofU32, ok_bind, res_bind, res_montOf, e2, ok_bind, res_bind, res_montTo, e3, ok_bind] at hp
    obtain rfl := Except.ok.inj hp
    exact ⟨l2, v2, l3, ve⟩
  exact (h.and (key ok hn lg hg hd hd0) (key ok' hn' lg' hg' hd' hd0')).mono fun _ _ h => h.2

omit ok ok' hn hn' lm lm' vm vm' lg lg' hg hg' hd hd0 hd' hd0' ha in
theorem mrOneLoopL_eq (K : Nat) (st : MontState) (g m : List U32) (r a : Nat) : mrOneLoopL K st g r a m =
    (bnOfU32L K (BitVec.ofNat 32 a) >>= fun bna => montOfL K st bna >>= fun b => montToL K st g >>= fun e => pure (b, e)) >>= fun p => montExpL K st p.1 p.2 >>= fun x =>
    montToL K st x >>= fun xv => bnOfU32L K 1#32 >>= fun one => bnEqL xv one >>= fun e1 => emit (.branch e1) >>= fun _ => if e1 then pure true else
      montToL K st x >>= fun xv => bnEqL xv m >>= fun e2 => emit (.branch e2) >>= fun _ => if e2 then pure true else mrLoopL K st m (r - 1) x := by
  rw [mrOneLoopL]
  simp only [bind_assoc, pure_bind]

omit ok ok' lm lm' vm vm' lg lg' hg hg' hd hd0 hd' hd0' ha hn hn' in
theorem one_same (hw : 0 < w) : Same blank (fun x y : List U32 => (x.length = w ∧ value x = 1) ∧ y.length = w ∧ value y = 1) (bnOfU32L (32 * w) 1#32) (bnOfU32L (32 * w) 1#32) := by
  obtain ⟨lo, vo⟩ := bnOfU32_spec (32 * w) (by omega) 1#32
  rw [bnN_mul32] at lo
  exact ⟨rfl, ⟨lo, vo⟩, lo, vo⟩

omit ok ok' lm lm' vm vm' lg lg' hg hg' hd hd0 hd' hd0' ha hn hn' in
theorem order_one {n d : Nat} (hn : 2 < n) {Z : ZMod n} (h : Z ^ d = 1) (s : Nat) : Z ^ (2 ^ s * d) ≠ -1 := by
  rw [Nat.mul_comm, pow_mul, h, one_pow]
  haveI : Fact (2 < n) := ⟨hn⟩
  exact (ZMod.neg_one_ne_one).symm

omit ok ok' lm lm' vm vm' lg lg' hg hg' hd hd0 hd' hd0' ha hn hn' in
theorem order_minus {n d : Nat} (hn : 2 < n) {Z : ZMod n} (h : Z ^ d = -1) (s : Nat) (hs : 0 < s) : Z ^ (2 ^ s * d) ≠ -1 := by
  obtain ⟨i, rfl⟩ : ∃ i, s = i + 1 := ⟨s - 1, by omega⟩
  rw [Nat.mul_comm, pow_mul, h, pow_succ', pow_mul, neg_one_sq, one_pow]
  haveI : Fact (2 < n) := ⟨hn⟩
  exact (ZMod.neg_one_ne_one).symm

/-- One base. -/
theorem sync_mrOneLoop (hv : View v) : Sync v (fun b b' => b = b' ∧ SameOrder (value st.N) (value st'.N) a d d' r ∧ (v = some → d = d'))
    (mrOneLoopL (32 * w) st g r a m) (mrOneLoopL (32 * w) st' g' r a m') := by
  rw [mrOneLoopL_eq, mrOneLoopL_eq]
  refine Sync.bind (Same.sync hv (same_expStart ok ok' hn hn' lg lg' hg hg' hd hd0 hd' hd0' ha)) fun p p' hp => ?_
  obtain ⟨⟨l1, v1, l2, v2⟩, l1', v1', l2', v2'⟩ := hp
  refine Sync.bind (sync_exp ok ok' hv l1 l1' l2 l2' v1 v1').2 fun x x' hx => ?_
  obtain ⟨⟨⟨lx, vx⟩, lx', vx'⟩, hsome⟩ := hx
  rw [v2] at vx
  rw [v2'] at vx'
  have hsome : v = some → d = d' := fun h => by rw [← v2, ← v2', hsome h]
  refine Sync.bind (Same.sync hv ((same_montTo (32 * w) (mont_same ok ok') x x').and (P := fun y => ∀ c : List U32, c.length = w → value c < value st.N → value c ≠ 0 → SL y c ∧ (bnEq y c = true ↔ (a : ZMod (value st.N)) ^ d = value c))
    (Q := fun y => ∀ c : List U32, c.length = w → value c < value st'.N → value c ≠ 0 → SL y c ∧ (bnEq y c = true ↔ (a : ZMod (value st'.N)) ^ d' = value c)) ?_ ?_)) fun y y' hy => ?_
  · intro y hy c lc hc hc0
    exact (fun h => ⟨h.1, h.2.2.1⟩) (show _ from (same_other (same_compare ok ok lx lx lc lc vx vx hc hc0 hc hc0) hy).choose_spec.2)
  · intro y hy c lc hc hc0
    exact (fun h => ⟨h.1, h.2.2.1⟩) (show _ from (same_other (same_compare ok' ok' lx' lx' lc lc vx' vx' hc hc0 hc hc0) hy).choose_spec.2)
  obtain ⟨-, hy1, hy1'⟩ := hy
  refine Sync.bind (Same.sync hv (one_same ok.hw)) fun o o' ho => ?_
  obtain ⟨⟨lo, vo⟩, lo', vo'⟩ := ho
  obtain ⟨sy, by1⟩ := hy1 o lo (by omega) (by omega)
  obtain ⟨sy', by1'⟩ := hy1' o' lo' (by omega) (by omega)
  rw [vo, Nat.cast_one] at by1
  rw [vo', Nat.cast_one] at by1'
  refine Sync.bind (Same.sync hv (same_eq (sy.trans (lo.trans (lo'.symm.trans sy'.symm))) (lo.trans lo'.symm))) fun e e' he => ?_
  obtain ⟨rfl, rfl⟩ := he
  refine Sync.bind (Sync.branch hv _ _) fun _ _ hb1 => ?_
  have hb1 : (a : ZMod (value st.N)) ^ d = 1 ↔ (a : ZMod (value st'.N)) ^ d' = 1 := by rw [← by1, ← by1', hb1]
  refine Sync.ite (by rw [by1, by1', hb1]) (fun hc => Sync.pure ⟨rfl, ⟨hb1, fun s _ => ?_⟩, hsome⟩) fun hc => ?_
  · have h3 := by1.mp hc
    exact ⟨fun h => absurd h (order_one hn h3 s), fun h => absurd h (order_one hn' (hb1.mp h3) s)⟩
  refine Sync.bind (Same.sync hv (same_compare ok ok' lx lx' lm lm' vx vx' (by omega) (by omega) (by omega) (by omega))) fun z z' hz => ?_
  obtain ⟨lz, lz', bz, bz'⟩ := hz
  rw [vm, cast_pred (by omega)] at bz
  rw [vm', cast_pred (by omega)] at bz'
  refine Sync.bind (Same.sync hv (same_eq (lz.trans (lm.trans (lm'.symm.trans lz'.symm))) (lm.trans lm'.symm))) fun e e' he => ?_
  obtain ⟨rfl, rfl⟩ := he
  refine Sync.bind (Sync.branch hv _ _) fun _ _ hb => ?_
  have hb : (a : ZMod (value st.N)) ^ d = -1 ↔ (a : ZMod (value st'.N)) ^ d' = -1 := by rw [← bz, ← bz', hb]
  refine Sync.ite (by rw [bz, bz', hb]) (fun hc => Sync.pure ⟨rfl, ⟨hb1, fun s hs => ?_⟩, hsome⟩) fun hc => ?_
  · rcases Nat.eq_zero_or_pos s with rfl | h0
    · rw [pow_zero, one_mul, one_mul]; exact hb
    · have h3 := bz.mp hc
      exact ⟨fun h => absurd h (order_minus hn h3 s h0), fun h => absurd h (order_minus hn' (hb.mp h3) s h0)⟩
  · refine (sync_mrLoop ok ok' hn hn' lm lm' vm vm' hv (r - 1) x x' _ _ lx lx' vx vx').mono fun b b' h => ⟨h.1, ⟨hb1, fun s hs => ?_⟩, hsome⟩
    rcases Nat.eq_zero_or_pos s with rfl | h0
    · rw [pow_zero, one_mul, one_mul]; exact hb
    · have := h.2 s h0 (by omega)
      rw [← pow_mul, ← pow_mul] at this
      rw [Nat.mul_comm, Nat.mul_comm _ d']; exact this

/-- One base, the converse. -/
theorem same_mrOneLoop (h : SameOrder (value st.N) (value st'.N) a d d' r) (hr : 0 < r) : Same blank (fun b b' => b = b')
    (mrOneLoopL (32 * w) st g r a m) (mrOneLoopL (32 * w) st' g' r a m') := by
  rw [mrOneLoopL_eq, mrOneLoopL_eq]
  refine Same.bind (same_expStart ok ok' hn hn' lg lg' hg hg' hd hd0 hd' hd0' ha) fun p p' hp => ?_
  obtain ⟨⟨l1, v1, l2, v2⟩, l1', v1', l2', v2'⟩ := hp
  refine Same.bind (sync_exp ok ok' view_some l1 l1' l2 l2' v1 v1').1 fun x x' hx => ?_
  obtain ⟨⟨lx, vx⟩, lx', vx'⟩ := hx
  rw [v2] at vx
  rw [v2'] at vx'
  refine Same.bind ((same_montTo (32 * w) (mont_same ok ok') x x').and (P := fun y => ∀ c : List U32, c.length = w → value c < value st.N → value c ≠ 0 → SL y c ∧ (bnEq y c = true ↔ (a : ZMod (value st.N)) ^ d = value c))
    (Q := fun y => ∀ c : List U32, c.length = w → value c < value st'.N → value c ≠ 0 → SL y c ∧ (bnEq y c = true ↔ (a : ZMod (value st'.N)) ^ d' = value c)) ?_ ?_) fun y y' hy => ?_
  · intro y hy c lc hc hc0
    exact (fun h => ⟨h.1, h.2.2.1⟩) (show _ from (same_other (same_compare ok ok lx lx lc lc vx vx hc hc0 hc hc0) hy).choose_spec.2)
  · intro y hy c lc hc hc0
    exact (fun h => ⟨h.1, h.2.2.1⟩) (show _ from (same_other (same_compare ok' ok' lx' lx' lc lc vx' vx' hc hc0 hc hc0) hy).choose_spec.2)
  obtain ⟨-, hy1, hy1'⟩ := hy
  refine Same.bind (one_same ok.hw) fun o o' ho => ?_
  obtain ⟨⟨lo, vo⟩, lo', vo'⟩ := ho
  obtain ⟨sy, by1⟩ := hy1 o lo (by omega) (by omega)
  obtain ⟨sy', by1'⟩ := hy1' o' lo' (by omega) (by omega)
  rw [vo, Nat.cast_one] at by1
  rw [vo', Nat.cast_one] at by1'
  refine Same.bind (same_eq (sy.trans (lo.trans (lo'.symm.trans sy'.symm))) (lo.trans lo'.symm)) fun e e' he => ?_
  obtain ⟨rfl, rfl⟩ := he
  have hb1 : bnEq y o = bnEq y' o' := by rw [Bool.eq_iff_iff, by1, by1', h.1]
  refine Same.bind (Same.emit (by rw [hb1])) fun _ _ _ => Same.ite (by rw [hb1]) (fun _ => Same.pure rfl) fun hc => ?_
  refine Same.bind (same_compare ok ok' lx lx' lm lm' vx vx' (by omega) (by omega) (by omega) (by omega)) fun z z' hz => ?_
  obtain ⟨lz, lz', bz, bz'⟩ := hz
  rw [vm, cast_pred (by omega)] at bz
  rw [vm', cast_pred (by omega)] at bz'
  refine Same.bind (same_eq (lz.trans (lm.trans (lm'.symm.trans lz'.symm))) (lm.trans lm'.symm)) fun e e' he => ?_
  obtain ⟨rfl, rfl⟩ := he
  have h0 := h.2 0 hr
  rw [pow_zero, one_mul, one_mul] at h0
  have hb : bnEq z m = bnEq z' m' := by rw [Bool.eq_iff_iff, bz, bz', h0]
  refine Same.bind (Same.emit (by rw [hb])) fun _ _ _ => Same.ite (by rw [hb]) (fun _ => Same.pure rfl) fun _ => ?_
  refine same_mrLoop ok ok' hn hn' lm lm' vm vm' (r - 1) x x' _ _ lx lx' vx vx' fun s h1 h2 => ?_
  rw [← pow_mul, ← pow_mul, Nat.mul_comm d, Nat.mul_comm d']
  exact h.2 s (by omega)

end

end

end Verif.Proof
