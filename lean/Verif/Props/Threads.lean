import Verif.Model.Threads
import Verif.Props.KeySpace

/-! C132: threads that draw random values at the same time. -/

namespace Verif.Props
open Verif.Model Verif.Proof

/-- The values that thread `i` receives if whole calls happen in the given order and `vs` are the values of these calls. -/
def received (i : Nat) (order : List Nat) (vs : List U64) : List U64 := (order.zip vs).filterMap fun p => if p.1 = i then some p.2 else none

/-- C132: threads do not disturb each other: however their accesses interleave, they receive what they would receive if whole calls followed each other in some order. -/
def C132_claim : Prop := ∀ (c : U64) (schedule : List Nat), (∀ i, (((Threads.start c).run schedule).thread i).pc = 0) →
  ∃ order : List Nat, ∀ i, (((Threads.start c).run schedule).thread i).out = received i order (genRandom64 order.length ⟨[], c⟩).1

theorem run_append (s : Threads) (a b : List Nat) : s.run (a ++ b) = (s.run a).run b := List.foldl_append

theorem run_cons (s : Threads) (i : Nat) (a : List Nat) : s.run (i :: a) = (s.step i).run a := rfl

theorem gen64_succ (n : Nat) (c : U64) : (genRandom64 (n + 1) ⟨[], c⟩).1 = (randValue ⟨[], c⟩).1 :: (genRandom64 n ⟨[], lcgIter 2 c⟩).1 := rfl

theorem gen64_length : ∀ (n : Nat) (c : U64), (genRandom64 n ⟨[], c⟩).1.length = n
  | 0, _ => rfl
  | n + 1, c => by rw [gen64_succ, List.length_cons, gen64_length]

theorem lcgIter_add (a b : Nat) (c : U64) : lcgIter (a + b) c = lcgIter a (lcgIter b c) := by
  induction a with
  | zero => rw [Nat.zero_add]; rfl
  | succ a ih => rw [Nat.succ_add]; exact congrArg lcgStep ih

/-- A thread alone: `n` accesses. -/
def alone : Nat → U64 × Thread → U64 × Thread
  | 0, p => p
  | n + 1, p => alone n (Thread.access p.1 p.2)

/-- Six accesses of one thread are one call of `generate_random_value`. -/
theorem alone_call (c : U64) (t : Thread) (h : t.pc = 0) : (alone 6 (c, t)).1 = (randValue ⟨[], c⟩).2.cval ∧ (alone 6 (c, t)).2.pc = 0 ∧
    (alone 6 (c, t)).2.out = t.out ++ [(randValue ⟨[], c⟩).1] := by
  obtain ⟨pc, reg, rv, out⟩ := t
  obtain rfl : pc = 0 := h
  simp only [alone, Thread.access, randValue, List.getLast?_nil]
  exact ⟨trivial, trivial, trivial⟩

theorem alone_add : ∀ (m n : Nat) (p : U64 × Thread), alone (m + n) p = alone n (alone m p)
  | 0, n, p => by rw [Nat.zero_add]; rfl
  | m + 1, n, p => by rw [Nat.succ_add]; exact alone_add m n _

theorem alone_calls : ∀ (k : Nat) (c : U64) (t : Thread), t.pc = 0 → (alone (6 * k) (c, t)).1 = lcgIter (2 * k) c ∧ (alone (6 * k) (c, t)).2.pc = 0 ∧
    (alone (6 * k) (c, t)).2.out = t.out ++ (genRandom64 k ⟨[], c⟩).1
  | 0, c, t, h => ⟨rfl, h, (List.append_nil _).symm⟩
  | k + 1, c, t, h => by
    obtain ⟨h1, h2, h3⟩ := alone_call c t h
    have e : alone (6 * (k + 1)) (c, t) = alone (6 * k) ((alone 6 (c, t)).1, (alone 6 (c, t)).2) := by
      rw [show 6 * (k + 1) = 6 + 6 * k by omega, alone_add]
    obtain ⟨i1, i2, i3⟩ := alone_calls k (alone 6 (c, t)).1 _ h2
    rw [e]
    refine ⟨i1.trans ?_, i2, ?_⟩
    · rw [h1, show 2 * (k + 1) = 2 * k + 2 by omega, lcgIter_add]; rfl
    · rw [i3, h3, h1, gen64_succ, List.append_assoc]; rfl

theorem run_replicate (i : Nat) : ∀ (n : Nat) (s : Threads), (s.run (List.replicate n i)).cval = (alone n (s.cval, s.thread i)).1 ∧
    (s.run (List.replicate n i)).thread i = (alone n (s.cval, s.thread i)).2 ∧ ∀ j, j ≠ i → (s.run (List.replicate n i)).thread j = s.thread j
  | 0, s => ⟨rfl, rfl, fun _ _ => rfl⟩
  | n + 1, s => by
    obtain ⟨h1, h2, h3⟩ := run_replicate i n (s.step i)
    have e : (s.step i).thread i = (Thread.access s.cval (s.thread i)).2 := by simp [Threads.step]
    rw [e] at h1 h2
    rw [List.replicate_succ, run_cons]
    refine ⟨h1, h2, fun j hj => (h3 j hj).trans ?_⟩
    simp [Threads.step, hj]

/-! ### whole calls one after the other -/

/-- If whole calls follow each other, in any order, the threads share the one stream of the generator: no value is given twice, none is lost. -/
theorem C132_atomic_partial : ∀ (order : List Nat) (s : Threads), (∀ i, (s.thread i).pc = 0) →
    (s.run (order.flatMap (List.replicate 6))).cval = lcgIter (2 * order.length) s.cval ∧
    ∀ i, ((s.run (order.flatMap (List.replicate 6))).thread i).pc = 0 ∧
      ((s.run (order.flatMap (List.replicate 6))).thread i).out = (s.thread i).out ++ received i order (genRandom64 order.length ⟨[], s.cval⟩).1
  | [], s, h => ⟨rfl, fun i => ⟨h i, (List.append_nil _).symm⟩⟩
  | j :: order, s, h => by
    obtain ⟨r1, r2, r3⟩ := run_replicate j 6 s
    obtain ⟨a1, a2, a3⟩ := alone_call s.cval (s.thread j) (h j)
    have hpc : ∀ i, ((s.run (List.replicate 6 j)).thread i).pc = 0 := fun i => by
      by_cases e : i = j
      · rw [e, r2, a2]
      · rw [r3 i e, h i]
    obtain ⟨i1, i2⟩ := C132_atomic_partial order (s.run (List.replicate 6 j)) hpc
    have hc : (s.run (List.replicate 6 j)).cval = lcgIter 2 s.cval := r1.trans a1
    rw [hc] at i1 i2
    rw [List.flatMap_cons, run_append, List.length_cons]
    refine ⟨i1.trans ?_, fun i => ⟨(i2 i).1, (i2 i).2.trans ?_⟩⟩
    · rw [show 2 * (order.length + 1) = 2 * order.length + 2 by omega, lcgIter_add]
    · rw [gen64_succ, received, received, List.zip_cons_cons, List.filterMap_cons]
      by_cases e : i = j
      · rw [e, if_pos rfl, r2, a3, List.append_assoc]; rfl
      · rw [if_neg (fun h => e h.symm), r3 i e]

/-- A case that meets the hypotheses of `C132_atomic_partial`. -/
example := C132_atomic_partial [0, 1, 1, 0, 2] (Threads.start 7#64) (fun _ => rfl)

/-! ### in step -/

theorem access_again (c : U64) (t : Thread) : Thread.access (Thread.access c t).1 t = Thread.access c t := by
  obtain ⟨pc, reg, rv, out⟩ := t
  match pc with
  | 0 => simp only [Thread.access]
  | 1 => simp only [Thread.access]
  | 2 => simp only [Thread.access]
  | 3 => simp only [Thread.access]
  | 4 => simp only [Thread.access]
  | _ + 5 => simp only [Thread.access]

theorem run_round (t : Thread) : ∀ (T : Nat) (s : Threads), (∀ i < T, s.thread i = t) →
    (s.run (List.range T)).cval = (if T = 0 then s.cval else (Thread.access s.cval t).1) ∧
    (∀ i < T, (s.run (List.range T)).thread i = (Thread.access s.cval t).2) ∧ ∀ i, T ≤ i → (s.run (List.range T)).thread i = s.thread i
  | 0, s, _ => ⟨rfl, fun i hi => absurd hi (Nat.not_lt_zero i), fun _ _ => rfl⟩
  | T + 1, s, h => by
    obtain ⟨h1, h2, h3⟩ := run_round t T s fun i hi => h i (by omega)
    have hT : (s.run (List.range T)).thread T = t := (h3 T (Nat.le_refl T)).trans (h T (Nat.lt_succ_self T))
    have ha : Thread.access (s.run (List.range T)).cval t = Thread.access s.cval t := by
      rw [h1]
      split
      · rfl
      · exact access_again _ _
    have e : s.run (List.range (T + 1)) = ⟨(Thread.access s.cval t).1, Function.update (s.run (List.range T)).thread T (Thread.access s.cval t).2⟩ := by
      rw [List.range_succ, run_append]
      show (s.run (List.range T)).step T = _
      rw [Threads.step, hT, ha]
    rw [e]
    refine ⟨by simp, fun i hi => ?_, fun i hi => ?_⟩
    · by_cases c : i = T
      · simp [c]
      · simp only [Function.update_of_ne c]
        exact h2 i (by omega)
    · simp only [Function.update_of_ne (show i ≠ T by omega)]
      exact h3 i (by omega)

/-- `n` rounds in each of which every one of `T` threads makes one access -/
def rounds (T n : Nat) : List Nat := (List.replicate n (List.range T)).flatten

theorem run_rounds (T : Nat) (hT : T ≠ 0) : ∀ (n : Nat) (s : Threads) (t : Thread), (∀ i < T, s.thread i = t) →
    (s.run (rounds T n)).cval = (alone n (s.cval, t)).1 ∧ (∀ i < T, (s.run (rounds T n)).thread i = (alone n (s.cval, t)).2) ∧
    ∀ i, T ≤ i → (s.run (rounds T n)).thread i = s.thread i
  | 0, s, t, h => ⟨rfl, h, fun _ _ => rfl⟩
  | n + 1, s, t, h => by
    obtain ⟨h1, h2, h3⟩ := run_round t T s h
    rw [if_neg hT] at h1
    obtain ⟨i1, i2, i3⟩ := run_rounds T hT n (s.run (List.range T)) _ h2
    rw [h1] at i1 i2
    rw [rounds, List.replicate_succ, List.flatten_cons, run_append]
    exact ⟨i1, i2, fun i hi => (i3 i hi).trans (h3 i hi)⟩

/-- Threads that run in step receive the same values, all of them and as long as they stay in step: the first values of the generator. -/
theorem C132_same_partial (T k : Nat) (c : U64) (hT : T ≠ 0) : (∀ i, (((Threads.start c).run (rounds T (6 * k))).thread i).pc = 0) ∧
    ∀ i < T, (((Threads.start c).run (rounds T (6 * k))).thread i).out = (genRandom64 k ⟨[], c⟩).1 := by
  obtain ⟨_, h2, h3⟩ := run_rounds T hT (6 * k) (Threads.start c) {} fun _ _ => rfl
  obtain ⟨_, a2, a3⟩ := alone_calls k c {} rfl
  refine ⟨fun i => ?_, fun i hi => by rw [h2 i hi]; exact a3⟩
  by_cases hi : i < T
  · rw [h2 i hi]; exact a2
  · rw [h3 i (by omega)]; rfl

theorem received_length (i : Nat) : ∀ (order : List Nat) (vs : List U64), vs.length = order.length → (received i order vs).length = order.count i
  | [], _, _ => by simp [received]
  | j :: order, v :: vs, h => by
    have ih := received_length i order vs (by simpa using h)
    rw [received] at ih ⊢
    rw [List.zip_cons_cons, List.filterMap_cons, List.count_cons]
    by_cases e : j = i
    · simp [e, ih]
    · simp [e, ih]

/-- C132 fails: in a fresh process two threads in step receive the same value. -/
theorem C132_false : ¬ C132_claim := by
  intro h
  obtain ⟨h1, h2⟩ := C132_same_partial 2 1 randInit.cval (by decide)
  obtain ⟨order, ho⟩ := h randInit.cval (rounds 2 (6 * 1)) h1
  have hl : ∀ i, ((((Threads.start randInit.cval).run (rounds 2 (6 * 1))).thread i).out).length = order.count i := fun i => by
    rw [ho i, received_length i order _ (gen64_length _ _)]
  have h0 := hl 0
  have h1' := hl 1
  rw [h2 0 (by decide), gen64_length] at h0
  rw [h2 1 (by decide), gen64_length] at h1'
  have hmem : ∀ j ∈ order, j = 0 ∨ j = 1 := fun j hj => by
    by_contra hn
    have hj2 : ¬ j < 2 := by omega
    have e : (((Threads.start randInit.cval).run (rounds 2 (6 * 1))).thread j).out = [] := by
      rw [(run_rounds 2 (by decide) (6 * 1) (Threads.start randInit.cval) {} fun _ _ => rfl).2.2 j (by omega)]
      rfl
    have := hl j
    rw [e] at this
    exact absurd (List.count_pos_iff.mpr hj) (by rw [← this]; decide)
  have key : ∀ l : List Nat, (∀ j ∈ l, j = 0 ∨ j = 1) → l.length = l.count 0 + l.count 1 := by
    intro l
    induction l with
    | nil => intro _; rfl
    | cons a l ih =>
      intro hl
      have := ih fun j hj => hl j (List.mem_cons_of_mem _ hj)
      rcases hl a List.mem_cons_self with rfl | rfl
      · simp; omega
      · simp; omega
  have hlen := key order hmem
  match order, hlen, hmem, h0, h1' with
  | [a, b], _, hmem, h0, h1' =>
    have r0 := ho 0
    have r1 := ho 1
    rw [h2 0 (by decide)] at r0
    rw [h2 1 (by decide)] at r1
    rcases hmem a (by simp) with rfl | rfl <;> rcases hmem b (by simp) with rfl | rfl
    · simp at h0
    · exact absurd r1 (by decide +kernel)
    · exact absurd r0 (by decide +kernel)
    · simp at h1'
  | [], _, _, h0, _ => simp at h0
  | [_], hlen, _, h0, h1' => simp at hlen; omega
  | _ :: _ :: _ :: _, hlen, _, h0, h1' => rw [← h0, ← h1'] at hlen; simp at hlen

/-! ### a late store -/

/-- A thread that is interrupted between load and store sets the generator back: another thread that has received `m` values receives all of them but the first again. -/
theorem C132_repeat_partial (m k : Nat) (c : U64) :
    (((Threads.start c).run (0 :: (List.replicate (6 * m) 1 ++ (List.replicate 5 0 ++ List.replicate (6 * k) 1)))).thread 1).out =
      (genRandom64 m ⟨[], c⟩).1 ++ (genRandom64 k ⟨[], lcgIter 2 c⟩).1 ∧
    ∀ i, (((Threads.start c).run (0 :: (List.replicate (6 * m) 1 ++ (List.replicate 5 0 ++ List.replicate (6 * k) 1)))).thread i).pc = 0 := by
  rw [run_cons, run_append, run_append]
  set s1 := (Threads.start c).step 0 with hs1
  have t0 : s1.thread 0 = { pc := 1, reg := c } := by simp [hs1, Threads.step, Threads.start, Thread.access]
  have tn : ∀ i, i ≠ 0 → s1.thread i = {} := fun i hi => by simp [hs1, Threads.step, Threads.start, hi]
  obtain ⟨_, a2, a3⟩ := run_replicate 1 (6 * m) s1
  set s2 := s1.run (List.replicate (6 * m) 1)
  obtain ⟨b1, b2, b3⟩ := run_replicate 0 5 s2
  set s3 := s2.run (List.replicate 5 0)
  obtain ⟨_, d2, d3⟩ := run_replicate 1 (6 * k) s3
  have u0 : s2.thread 0 = { pc := 1, reg := c } := (a3 0 (by decide)).trans t0
  have hc : s1.cval = c := rfl
  obtain ⟨_, e2, e3⟩ := alone_calls m c {} rfl
  have u1 : s3.thread 1 = (alone (6 * m) (c, {})).2 := by rw [b3 1 (by decide), a2, tn 1 (by decide), hc]
  rw [u0] at b1 b2
  have v : s3.cval = lcgIter 2 c := b1
  obtain ⟨_, f2, f3⟩ := alone_calls k (lcgIter 2 c) (s3.thread 1) (by rw [u1]; exact e2)
  refine ⟨?_, fun i => ?_⟩
  · rw [d2, v, f3, u1, e3]; rfl
  · by_cases h1 : i = 1
    · rw [h1, d2, v, f2]
    · rw [d3 i h1]
      by_cases h0 : i = 0
      · rw [h0, b2]; rfl
      · rw [b3 i h0, a3 i h1, tn i h0]

/-! ### every schedule -/

/-- The stores a thread has made -/
def storesOf (t : Thread) : Nat := 2 * t.out.length + (if 5 ≤ t.pc then 2 else if 2 ≤ t.pc then 1 else 0)

/-- Every value in sight is one of the first `N` states of the generator. -/
structure Within (c : U64) (N : Nat) (s : Threads) : Prop where
  cval : ∃ a ≤ N, s.cval = lcgIter a c
  pc : ∀ i, (s.thread i).pc ≤ 5
  reg : ∀ i, (s.thread i).pc = 1 ∨ (s.thread i).pc = 4 → ∃ a ≤ N, (s.thread i).reg = lcgIter a c
  rv : ∀ i, 3 ≤ (s.thread i).pc → ∃ a ≤ N, (s.thread i).rv = lcgIter a c &&& 0xFFFFFFFF00000000#64
  out : ∀ i, ∀ v ∈ (s.thread i).out, ∃ a ≤ N, ∃ b ≤ N, v = (lcgIter a c &&& 0xFFFFFFFF00000000#64) ||| ((lcgIter b c >>> 32) &&& 0xFFFFFFFF#64)

theorem Within.mono {c : U64} {N M : Nat} {s : Threads} (h : Within c N s) (hM : N ≤ M) : Within c M s := by
  obtain ⟨⟨a, ha, e⟩, hp, hr, hv, ho⟩ := h
  refine ⟨⟨a, by omega, e⟩, hp, fun i hi => ?_, fun i hi => ?_, fun i v hi => ?_⟩
  · obtain ⟨a, ha, e⟩ := hr i hi; exact ⟨a, by omega, e⟩
  · obtain ⟨a, ha, e⟩ := hv i hi; exact ⟨a, by omega, e⟩
  · obtain ⟨a, ha, b, hb, e⟩ := ho i v hi; exact ⟨a, by omega, b, by omega, e⟩

/-- Replacing one thread and `cval` -/
theorem Within.update {c : U64} {N : Nat} {s : Threads} (h : Within c N s) (i : Nat) (x : U64) (t : Thread) (hx : ∃ a ≤ N, x = lcgIter a c) (hp : t.pc ≤ 5)
    (hr : t.pc = 1 ∨ t.pc = 4 → ∃ a ≤ N, t.reg = lcgIter a c) (hv : 3 ≤ t.pc → ∃ a ≤ N, t.rv = lcgIter a c &&& 0xFFFFFFFF00000000#64)
    (ho : ∀ v ∈ t.out, ∃ a ≤ N, ∃ b ≤ N, v = (lcgIter a c &&& 0xFFFFFFFF00000000#64) ||| ((lcgIter b c >>> 32) &&& 0xFFFFFFFF#64)) :
    Within c N ⟨x, Function.update s.thread i t⟩ := by
  have key : ∀ P : Thread → Prop, (∀ j, P (s.thread j)) → P t → ∀ j, P (Function.update s.thread i t j) := by
    intro P h1 h2 j
    by_cases e : j = i
    · rw [e, Function.update_self]; exact h2
    · rw [Function.update_of_ne e]; exact h1 j
  exact ⟨hx, key (fun t => t.pc ≤ 5) h.pc hp, key (fun t => t.pc = 1 ∨ t.pc = 4 → ∃ a ≤ N, t.reg = lcgIter a c) h.reg hr,
    key (fun t => 3 ≤ t.pc → ∃ a ≤ N, t.rv = lcgIter a c &&& 0xFFFFFFFF00000000#64) h.rv hv,
    key (fun t => ∀ v ∈ t.out, ∃ a ≤ N, ∃ b ≤ N, v = (lcgIter a c &&& 0xFFFFFFFF00000000#64) ||| ((lcgIter b c >>> 32) &&& 0xFFFFFFFF#64)) h.out ho⟩

theorem within_step {c : U64} {N : Nat} {s : Threads} (h : Within c N s) (i : Nat) :
    Within c (N + storesOf ((s.step i).thread i) - storesOf (s.thread i)) (s.step i) ∧ storesOf (s.thread i) ≤ storesOf ((s.step i).thread i) := by
  have hp := h.pc i
  have hr := h.reg i
  have hv := h.rv i
  have ho := h.out i
  have up := fun (M : Nat) (hM : N ≤ M) => (h.mono hM).update i
  obtain ⟨a, ha, e⟩ := h.cval
  rw [show (s.step i).thread i = (Thread.access s.cval (s.thread i)).2 by simp [Threads.step], Threads.step]
  generalize s.thread i = t at *
  obtain ⟨pc, reg, rv, out⟩ := t
  match pc with
  | 0 => exact ⟨by simpa [Thread.access, storesOf] using up N (Nat.le_refl N) s.cval ⟨1, s.cval, rv, out⟩ ⟨a, ha, e⟩ (by simp) (fun _ => ⟨a, ha, e⟩) (by simp) ho, by simp [Thread.access, storesOf]⟩
  | 1 =>
    obtain ⟨b, hb, f⟩ := hr (.inl rfl)
    have := up (N + 1) (Nat.le_succ N) (lcgStep reg) ⟨2, reg, rv, out⟩ ⟨b + 1, by omega, congrArg lcgStep f⟩ (by simp) (by simp) (by simp)
      (fun v hv => by obtain ⟨a, ha, b, hb, e⟩ := ho v hv; exact ⟨a, by omega, b, by omega, e⟩)
    refine ⟨?_, by simp [Thread.access, storesOf]⟩
    have e2 : N + storesOf (Thread.access s.cval ⟨1, reg, rv, out⟩).2 - storesOf ⟨1, reg, rv, out⟩ = N + 1 := by simp [Thread.access, storesOf]; omega
    rw [e2]; exact this
  | 2 => exact ⟨by simpa [Thread.access, storesOf] using up N (Nat.le_refl N) s.cval ⟨3, reg, s.cval &&& 0xFFFFFFFF00000000#64, out⟩ ⟨a, ha, e⟩ (by simp) (by simp) (fun _ => ⟨a, ha, by rw [e]⟩) ho, by simp [Thread.access, storesOf]⟩
  | 3 => exact ⟨by simpa [Thread.access, storesOf] using up N (Nat.le_refl N) s.cval ⟨4, s.cval, rv, out⟩ ⟨a, ha, e⟩ (by simp) (fun _ => ⟨a, ha, e⟩) (fun _ => hv (by simp)) ho, by simp [Thread.access, storesOf]⟩
  | 4 =>
    obtain ⟨b, hb, f⟩ := hr (.inr rfl)
    obtain ⟨d, hd, g⟩ := hv (by simp)
    have := up (N + 1) (Nat.le_succ N) (lcgStep reg) ⟨5, reg, rv, out⟩ ⟨b + 1, by omega, congrArg lcgStep f⟩ (by simp) (by simp) (fun _ => ⟨d, by omega, g⟩)
      (fun v hv => by obtain ⟨a, ha, b, hb, e⟩ := ho v hv; exact ⟨a, by omega, b, by omega, e⟩)
    refine ⟨?_, by simp [Thread.access, storesOf]⟩
    have e2 : N + storesOf (Thread.access s.cval ⟨4, reg, rv, out⟩).2 - storesOf ⟨4, reg, rv, out⟩ = N + 1 := by simp [Thread.access, storesOf]; omega
    rw [e2]; exact this
  | 5 =>
    obtain ⟨d, hd, g⟩ := hv (by simp)
    have := up N (Nat.le_refl N) s.cval ⟨0, reg, rv, out ++ [rv ||| ((s.cval >>> 32) &&& 0xFFFFFFFF#64)]⟩ ⟨a, ha, e⟩ (by simp) (by simp) (by simp)
      (fun v hv => by
        rw [List.mem_append, List.mem_singleton] at hv
        rcases hv with hv | rfl
        · exact ho v hv
        · exact ⟨d, hd, a, ha, by rw [e]; dsimp only at g; rw [g]⟩)
    refine ⟨?_, by simp [Thread.access, storesOf]; omega⟩
    have e2 : N + storesOf (Thread.access s.cval ⟨5, reg, rv, out⟩).2 - storesOf ⟨5, reg, rv, out⟩ = N := by simp [Thread.access, storesOf]; omega
    rw [e2]; exact this
  | n + 6 => exact absurd hp (by simp)

theorem within_run (c : U64) (T : Nat) : ∀ (schedule : List Nat) (s : Threads), (∀ i ∈ schedule, i < T) → Within c (∑ i ∈ Finset.range T, storesOf (s.thread i)) s →
    Within c (∑ i ∈ Finset.range T, storesOf ((s.run schedule).thread i)) (s.run schedule)
  | [], _, _, h => h
  | j :: schedule, s, hs, h => by
    refine within_run c T schedule (s.step j) (fun i hi => hs i (List.mem_cons_of_mem _ hi)) ?_
    obtain ⟨h1, h2⟩ := within_step h j
    have hj : j ∈ Finset.range T := Finset.mem_range.mpr (hs j List.mem_cons_self)
    have e : ∑ i ∈ Finset.range T, storesOf ((s.step j).thread i) = (∑ i ∈ Finset.range T, storesOf (s.thread i)) + storesOf ((s.step j).thread j) - storesOf (s.thread j) := by
      rw [← Finset.add_sum_erase _ _ hj, ← Finset.add_sum_erase _ (fun i => storesOf (s.thread i)) hj]
      have : ∑ i ∈ (Finset.range T).erase j, storesOf ((s.step j).thread i) = ∑ i ∈ (Finset.range T).erase j, storesOf (s.thread i) :=
        Finset.sum_congr rfl fun i hi => by rw [Threads.step]; simp only [Function.update_of_ne (Finset.ne_of_mem_erase hi)]
      rw [this]
      omega
    rw [e]
    exact h1

/-- Whatever the schedule, `n` calls leave the generator at most `2 n` steps behind where it was, and each value that was returned consists of the upper halves of two
states among these. -/
theorem C132_any_partial (c : U64) (T : Nat) (schedule : List Nat) (hs : ∀ i ∈ schedule, i < T) (hp : ∀ i, (((Threads.start c).run schedule).thread i).pc = 0) :
    let s := (Threads.start c).run schedule
    let n := ∑ i ∈ Finset.range T, (s.thread i).out.length
    (∃ a ≤ 2 * n, s.cval = lcgIter a c) ∧ ∀ i, ∀ v ∈ (s.thread i).out, ∃ a ≤ 2 * n, ∃ b ≤ 2 * n,
      v = (lcgIter a c &&& 0xFFFFFFFF00000000#64) ||| ((lcgIter b c >>> 32) &&& 0xFFFFFFFF#64) := by
  intro s n
  have h := within_run c T schedule (Threads.start c) hs
    ⟨⟨0, Nat.zero_le _, rfl⟩, fun _ => Nat.zero_le _, fun _ h => by simp [Threads.start] at h, fun _ h => by simp [Threads.start] at h, fun _ v h => by simp [Threads.start] at h⟩
  have e : ∑ i ∈ Finset.range T, storesOf (s.thread i) = 2 * n := by
    rw [Finset.mul_sum]
    refine Finset.sum_congr rfl fun i _ => ?_
    rw [storesOf, hp i]; rfl
  rw [e] at h
  exact ⟨h.cval, h.out⟩

/-! ### keys -/

theorem randValue_test (l : List U64) (v x : U64) : randValue ⟨l ++ [v], x⟩ = (v, ⟨l, x⟩) := by
  rw [randValue, List.getLast?_append_of_ne_nil _ (by simp)]
  simp

theorem bnRandom_words (s : RandState) : (bnRandom 256 s).1 = splitValue 32 2 8 (randValue s).1 ++ (splitValue 32 2 6 (randValue (randValue s).2).1 ++
    (splitValue 32 2 4 (randValue (randValue (randValue s).2).2).1 ++ (splitValue 32 2 2 (randValue (randValue (randValue (randValue s).2).2).2).1 ++ []))) := by
  rw [bnRandom, genRandom32, show bnN 256 = 8 from rfl]
  rw [genRandomB, dif_neg (by decide)]
  dsimp only
  rw [genRandomB, dif_neg (by decide)]
  dsimp only
  rw [genRandomB, dif_neg (by decide)]
  dsimp only
  rw [genRandomB, dif_neg (by decide)]
  dsimp only
  rw [genRandomB, dif_pos (by decide)]

theorem key_words (s : RandState) : (ecRandomKey s).map Prod.fst = ecNormalize (bnRandom 256 s).1 := by
  rw [ecRandomKey]
  generalize bnRandom 256 s = p
  obtain ⟨k, s⟩ := p
  dsimp only
  cases ecNormalize k <;> rfl

theorem after_value (c : U64) : (randValue ⟨[], c⟩).2 = ⟨[], lcgIter 2 c⟩ := by
  rw [(randValue_parts c).1, lcgIter, lcgIter, lcgIter]

theorem words_of_values (c x : U64) : (bnRandom 256 ⟨(genRandom64 4 ⟨[], c⟩).1.reverse, x⟩).1 = (bnRandom 256 ⟨[], c⟩).1 := by
  rw [bnRandom_words, bnRandom_words, gen64_succ, gen64_succ, gen64_succ, gen64_succ, List.reverse_cons, randValue_test, List.reverse_cons]
  dsimp only
  rw [randValue_test, List.reverse_cons]
  dsimp only
  rw [randValue_test, List.reverse_cons]
  dsimp only
  rw [randValue_test, after_value, after_value, after_value]

theorem key_of_values (c x : U64) : (ecRandomKey ⟨(genRandom64 4 ⟨[], c⟩).1.reverse, x⟩).map Prod.fst = (ecRandomKey ⟨[], c⟩).map Prod.fst := by
  rw [key_words, key_words, words_of_values]

/-- Threads in step make the same X25519 private key. -/
theorem C132_keys_partial (T : Nat) (c x : U64) (hT : T ≠ 0) : ∀ i < T,
    (ecRandomKey ⟨(((Threads.start c).run (rounds T 24)).thread i).out.reverse, x⟩).map Prod.fst = (ecRandomKey ⟨[], c⟩).map Prod.fst := fun i hi => by
  rw [(C132_same_partial T 4 c hT).2 i hi]
  exact key_of_values c x

/-- The hypotheses are met: two threads that complete three calls each, in step, and threads that wait while one is inside a call. -/
example : (∀ i ∈ rounds 2 18, i < 2) ∧ (∀ i, (((Threads.start 5#64).run (rounds 2 (6 * 3))).thread i).pc = 0) ∧ (((Threads.start 5#64).run (rounds 2 (6 * 3))).thread 1).out.length = 3 :=
  ⟨by decide, (C132_same_partial 2 3 5#64 (by decide)).1, by rw [(C132_same_partial 2 3 5#64 (by decide)).2 1 (by decide), gen64_length]⟩

example : ∀ i, ((Threads.start 5#64).thread i).pc = 0 := fun _ => rfl

end Verif.Props
