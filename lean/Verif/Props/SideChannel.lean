import Verif.Proof.LeakSame
import Verif.Proof.Rsa
import Verif.Proof.X25519

/-! C119-C121: what an observer of branches, addresses and choices learns about private keys. -/

namespace Verif.Props

open Verif.Model Verif.Spec Verif.Proof

/-! ### X25519 -/

/-- C119: `X25519` takes the same branches and accesses the same array indices for all private keys and all points, if the conditions that only choose a value are
not seen. The run with events computes `x25519`. -/
theorem C119 (k k' u u' : List U32) (hk : k.length = 8) (hk' : k'.length = 8) (hu : u.length = 8) (hu' : u'.length = 8) :
    (x25519L k u).trace.map blank = (x25519L k' u').trace.map blank ∧ (x25519L k u).res = x25519 k u :=
  ⟨(same_x25519 (hk.trans hk'.symm) (hu.trans hu'.symm)).trace, res_x25519 k u⟩

/-- Two keys and two points meet the hypotheses of C119. -/
example : ([1#32, 2#32, 3#32, 4#32, 5#32, 6#32, 7#32, 8#32] : List U32).length = 8 ∧ ([9#32, 0#32, 0#32, 0#32, 0#32, 0#32, 0#32, 0#32] : List U32).length = 8 := ⟨rfl, rfl⟩

/-- The run has events of all kinds: the first ones touch the lowest word of the key in `normalize`. -/
example : (ecNormalizeL [1#32, 2#32, 3#32, 4#32, 5#32, 6#32, 7#32, 8#32]).trace.take 2 = [.addr 0, .addr 0] := by decide +kernel

/-- Branches and addresses only. -/
def hard (t : List Obs) : List Obs := t.filter fun o => match o with
  | .pick _ => false
  | _ => true

theorem hard_blank (t : List Obs) : hard (t.map blank) = hard t := by
  induction t with
  | nil => rfl
  | cons o t ih =>
    cases o with
    | pick b => exact ih
    | branch b => exact congrArg (Obs.branch b :: ·) ih
    | addr n => exact congrArg (Obs.addr n :: ·) ih

/-- C119 in terms of the branches and addresses. -/
theorem C119_hard (k k' u u' : List U32) (hk : k.length = 8) (hk' : k'.length = 8) (hu : u.length = 8) (hu' : u'.length = 8) :
    hard (x25519L k u).trace = hard (x25519L k' u').trace := by
  rw [← hard_blank, (C119 k k' u u' hk hk' hu hu').1, hard_blank]

/-- A case that meets the hypotheses of `C119_hard`. -/
example := C119_hard (List.replicate 8 1#32) (List.replicate 8 2#32) (List.replicate 8 3#32) (List.replicate 8 4#32) rfl rfl rfl rfl

/-! ### RSA -/

theorem sameMont {w : Nat} {s s' : MontState} (h : MontOk w s) (h' : MontOk w s') : SameMont (32 * w) s s' :=
  ⟨⟨by rw [bnN_mul32]; exact h.lN, by rw [bnN_mul32]; exact h'.lN⟩, h.lI.trans h'.lI.symm, h.l2.trans h'.l2.symm⟩

/-- C120: the RSA private operation takes the same branches and accesses the same array indices for all private keys, all odd moduli and all messages of a width, if
the conditions that only choose a value are not seen. -/
theorem C120 (w : Nat) (hw : 0 < w) (n n' d d' m m' : List U32) (hn : n.length = w) (hn' : n'.length = w) (hd : d.length = w) (hd' : d'.length = w) (hm : m.length = w)
    (hm' : m'.length = w) (ho : value n % 2 = 1) (ho' : value n' % 2 = 1) (h1 : 1 < value n) (h1' : 1 < value n') :
    ∃ k k', rsaPrivNew (32 * w) n d = .ok k ∧ rsaPrivNew (32 * w) n' d' = .ok k' ∧ (rsadpL (32 * w) k m).res = rsadp (32 * w) k m ∧
      (rsadpL (32 * w) k m).trace.map blank = (rsadpL (32 * w) k' m').trace.map blank := by
  obtain ⟨k, e, _, kd, ok⟩ := rsaPrivNew_spec w hw n d hn hd ho h1
  obtain ⟨k', e', _, kd', ok'⟩ := rsaPrivNew_spec w hw n' d' hn' hd' ho' h1'
  exact ⟨k, k', e, e', res_rsadp _ _ _, (same_rsadp _ (sameMont ok.st ok'.st) (by rw [SL, kd, kd', hd, hd']) (hm.trans hm'.symm)).trace⟩

/-- Two keys of 32 bits and two messages meet the hypotheses of C120. -/
example : value [15#32] % 2 = 1 ∧ value [21#32] % 2 = 1 ∧ 1 < value [15#32] ∧ 1 < value [21#32] := by decide

/-! ### what the choices reveal -/

/-- C121, full claim: the events, including the choices of values, do not depend on the private exponent. -/
def C121_claim : Prop := ∀ (w : Nat) (k k' : RsaPriv) (n d d' m : List U32), 0 < w → n.length = w → d.length = w → d'.length = w → m.length = w → value n % 2 = 1 →
  1 < value n → rsaPrivNew (32 * w) n d = .ok k → rsaPrivNew (32 * w) n d' = .ok k' → (rsadpL (32 * w) k m).trace = (rsadpL (32 * w) k' m).trace

theorem trace_bind {α β : Type} {x : Leak α} {a : α} (h : x.res = .ok a) (f : α → Leak β) : (x >>= f).trace = x.trace ++ (f a).trace := by
  obtain ⟨r, t⟩ := x
  cases r with
  | error e => exact nomatch h
  | ok b =>
    obtain rfl := Except.ok.inj h
    rfl

theorem ok_of_bind {α β : Type} {x : Leak α} {f : α → Leak β} {b : β} (h : (x >>= f).res = .ok b) : ∃ a, x.res = .ok a ∧ (f a).res = .ok b := by
  rw [res_bind] at h
  cases hx : x.res with
  | error e => rw [hx] at h; exact nomatch h
  | ok a => rw [hx] at h; exact ⟨a, rfl, h⟩

theorem same_other {α β : Type} {view : Obs → Obs} {R : α → β → Prop} {x : Leak α} {y : Leak β} (h : Same view R x y) {a : α} (hx : x.res = .ok a) :
    ∃ b, y.res = .ok b ∧ R a b := by
  have := h.2
  rw [hx] at this
  cases hy : y.res with
  | error e => rw [hy] at this; exact this.elim
  | ok b => rw [hy] at this; exact ⟨b, rfl, this⟩

theorem same_length {α β : Type} {R : α → β → Prop} {x : Leak α} {y : Leak β} (h : Same blank R x y) : x.trace.length = y.trace.length := by
  have := congrArg List.length h.trace
  rwa [List.length_map, List.length_map] at this

/-- Runs that look the same up to choices, and the same to the end, look the same in their parts. -/
theorem split_trace {α β γ δ : Type} {R : α → β → Prop} {x : Leak α} {y : Leak β} {f : α → Leak γ} {g : β → Leak δ} {a : α} {b : β} (h : Same blank R x y)
    (hx : x.res = .ok a) (hy : y.res = .ok b) (ht : (x >>= f).trace = (y >>= g).trace) : x.trace = y.trace ∧ (f a).trace = (g b).trace := by
  rw [trace_bind hx, trace_bind hy] at ht
  exact List.append_inj ht (same_length h)

/-- Every pass of a loop looks the same. -/
theorem split_passes {σ τ : Type} {R : σ → τ → Prop} {f : σ → Nat → Leak σ} {g : τ → Nat → Leak τ} {s : σ} {t : τ} (h0 : R s t)
    (hb : ∀ i s t, R s t → Same blank R (f s i) (g t i)) : ∀ (n : Nat) (a : σ), (passesL n s f).res = .ok a → (passesL n s f).trace = (passesL n t g).trace →
    ∀ i < n, ∃ p q p', R p q ∧ (f p i).res = .ok p' ∧ (f p i).trace = (g q i).trace
  | 0, _, _, _, i, hi => absurd hi (Nat.not_lt_zero i)
  | n + 1, a, hr, ht, i, hi => by
    rw [passesL] at hr
    rw [passesL, passesL] at ht
    obtain ⟨p, hp, hr⟩ := ok_of_bind hr
    have hs := Same.passes h0 hb n
    obtain ⟨q, hq, hpq⟩ := same_other hs hp
    obtain ⟨t1, t2⟩ := split_trace hs hp hq ht
    rcases Nat.lt_or_ge i n with h | h
    · exact split_passes h0 hb n p hp t1 i h
    · obtain rfl : i = n := by omega
      obtain ⟨_, _, hr⟩ := ok_of_bind hr
      exact ⟨p, q, a, hpq, hr, (List.cons.inj t2).2⟩

theorem bit_of_trace {K : Nat} {st st' : MontState} {one one' e e' : List U32} {p p' q : List U32 × List U32} {n : Nat} (hl : e.length = e'.length)
    (hr : (expPassL K st one e p n).res = .ok q) (ht : (expPassL K st one e p n).trace = (expPassL K st' one' e' p' n).trace) :
    ∃ x y, bnBit e n = .ok x ∧ bnBit e' n = .ok y ∧ (x != 0#32) = (y != 0#32) := by
  rw [expPassL] at hr ht
  rw [expPassL] at ht
  obtain ⟨x, hx, _⟩ := ok_of_bind hr
  have hs : Same blank _ (bnBitL e n) (bnBitL e' n) := same_bit hl n
  obtain ⟨y, hy, _⟩ := same_other hs hx
  obtain ⟨_, t2⟩ := split_trace hs hx hy ht
  rw [res_bit] at hx hy
  refine ⟨x, y, hx, hy, ?_⟩
  rw [trace_bind (a := ()) rfl, trace_bind (a := ()) rfl] at t2
  exact Obs.pick.inj (List.cons.inj t2).1

/-- The choices made by `exp` determine the exponent. -/
theorem exponent_of_trace {w : Nat} {s s' : MontState} (hs : SameMont (32 * w) s s') {a a' e e' r : List U32} (ha : Len (bnN (32 * w)) a a') (he : e.length = w)
    (he' : e'.length = w) (hr : (montExpL (32 * w) s a e).res = .ok r) (ht : (montExpL (32 * w) s a e).trace = (montExpL (32 * w) s' a' e').trace) : e = e' := by
  rw [montExpL] at hr ht
  rw [montExpL] at ht
  obtain ⟨c, hc, hr⟩ := ok_of_bind hr
  have s1 : Same blank _ (bnOfU32L (32 * w) 1#32) (bnOfU32L (32 * w) 1#32) := same_ofU32 (32 * w) 1#32 1#32
  obtain ⟨c', hc', r1⟩ := same_other s1 hc
  obtain ⟨_, ht⟩ := split_trace s1 hc hc' ht
  obtain ⟨one, ho, hr⟩ := ok_of_bind hr
  have s2 := same_montOf (32 * w) hs r1
  obtain ⟨one', ho', r2⟩ := same_other s2 ho
  obtain ⟨_, ht⟩ := split_trace s2 ho ho' ht
  obtain ⟨p, hp, _⟩ := ok_of_bind hr
  have hb : ∀ (i : Nat) (s₁ t₁ : List U32 × List U32), (Len (bnN (32 * w)) s₁.1 t₁.1 ∧ Len (bnN (32 * w)) s₁.2 t₁.2) → _ :=
    fun n s₁ t₁ hp => same_expPass (32 * w) hs r2 (he.trans he'.symm) n (p := s₁) (p' := t₁) hp
  have s3 := Same.loop (32 * w) (s := (one, a)) (t := (one', a')) ⟨r2, ha⟩ hb
  obtain ⟨p', hp', r3⟩ := same_other s3 hp
  obtain ⟨ht, _⟩ := split_trace s3 hp hp' ht
  rw [loopL] at hp ht
  rw [loopL] at ht
  obtain ⟨u, hu, _⟩ := ok_of_bind hp
  have s4 := Same.passes (s := (one, a)) (t := (one', a')) ⟨r2, ha⟩ hb (32 * w)
  obtain ⟨u', hu', _⟩ := same_other s4 hu
  obtain ⟨ht, _⟩ := split_trace s4 hu hu' ht
  have bits := split_passes (s := (one, a)) (t := (one', a')) ⟨r2, ha⟩ hb (32 * w) u hu ht
  refine List.ext_getElem (he.trans he'.symm) fun i h1 h2 => ?_
  refine BitVec.eq_of_getLsbD_eq fun j hj => ?_
  obtain ⟨p, q, p', _, h3, h4⟩ := bits (32 * i + j) (by omega)
  obtain ⟨x, y, hx, hy, hxy⟩ := bit_of_trace (he.trans he'.symm) h3 h4
  have hd : (32 * i + j) / 32 = i := by omega
  have hm : (32 * i + j) % 32 = j := by omega
  rw [bnBit, hd, hm, rd_ok h1, ok_bind] at hx
  rw [bnBit, hd, hm, rd_ok h2, ok_bind] at hy
  rw [← Except.ok.inj hx, ← Except.ok.inj hy] at hxy
  have key : ∀ v : U32, ((v >>> j) &&& 1#32 != 0#32) = v.getLsbD j := by
    intro v
    have h1 : ((v >>> j) &&& 1#32) = if v.getLsbD j then 1#32 else 0#32 := by
      apply BitVec.eq_of_getLsbD_eq
      intro i hi
      rw [BitVec.getLsbD_and, BitVec.getLsbD_ushiftRight]
      rcases Nat.eq_zero_or_pos i with rfl | h
      · cases hv : v.getLsbD j <;> simp [hv]
      · have : (1#32).getLsbD i = false := by
          rw [BitVec.getLsbD_one]; simp; omega
        rw [this, Bool.and_false]
        cases v.getLsbD j
        · exact BitVec.getLsbD_zero.symm
        · exact this.symm
    rw [h1]
    cases v.getLsbD j <;> rfl
  rw [key, key] at hxy
  exact hxy

/-- C121, the exact truth: an observer who also sees which operand the conditional choice in `exp` takes learns the whole private exponent. This holds for all odd
moduli and all messages, known to the observer or not. -/
theorem C121_partial (w : Nat) (hw : 0 < w) (k k' : RsaPriv) (n n' d d' m m' : List U32) (hn : n.length = w) (hn' : n'.length = w) (hd : d.length = w) (hd' : d'.length = w)
    (hm : m.length = w) (hm' : m'.length = w) (ho : value n % 2 = 1) (ho' : value n' % 2 = 1) (h1 : 1 < value n) (h1' : 1 < value n')
    (hk : rsaPrivNew (32 * w) n d = .ok k) (hk' : rsaPrivNew (32 * w) n' d' = .ok k') (ht : (rsadpL (32 * w) k m).trace = (rsadpL (32 * w) k' m').trace) : d = d' := by
  obtain ⟨_, e, _, kd, ok⟩ := rsaPrivNew_spec w hw n d hn hd ho h1
  obtain rfl := Except.ok.inj (hk.symm.trans e)
  obtain ⟨_, e', _, kd', ok'⟩ := rsaPrivNew_spec w hw n' d' hn' hd' ho' h1'
  obtain rfl := Except.ok.inj (hk'.symm.trans e')
  have hs := sameMont ok.st ok'.st
  obtain ⟨r, hr, _⟩ := rsadp_spec ok m hm
  rw [← res_rsadp, rsadpL] at hr
  rw [rsadpL, rsadpL] at ht
  obtain ⟨v, hv, hr⟩ := ok_of_bind hr
  have s1 := same_montOf (32 * w) hs (x := m) (x' := m') (hm.trans hm'.symm)
  obtain ⟨v', hv', r1⟩ := same_other s1 hv
  obtain ⟨_, ht⟩ := split_trace s1 hv hv' ht
  obtain ⟨x, hx, _⟩ := ok_of_bind hr
  have s2 := same_montExp (32 * w) hs r1 (e := k.d) (e' := k'.d) (by rw [SL, kd, kd', hd, hd'])
  obtain ⟨x', hx', _⟩ := same_other s2 hx
  obtain ⟨ht, _⟩ := split_trace s2 hx hx' ht
  rw [← kd, ← kd']
  exact exponent_of_trace hs r1 (by rw [kd, hd]) (by rw [kd', hd']) hx ht

/-- Two keys with one exponent and one message show the same events, so the hypothesis of C121_partial is met. -/
example (k : RsaPriv) (_ : rsaPrivNew (32 * 1) [15#32] [3#32] = .ok k) : (rsadpL (32 * 1) k [2#32]).trace = (rsadpL (32 * 1) k [2#32]).trace := rfl

theorem small_key (d : U32) : ∃ k, rsaPrivNew (32 * 1) [15#32] [d] = .ok k := by
  obtain ⟨k, e, _⟩ := rsaPrivNew_spec 1 (by omega) [15#32] [d] rfl rfl (by decide) (by decide)
  exact ⟨k, e⟩

theorem C121_false : ¬ C121_claim := fun h => by
  obtain ⟨k, hk⟩ := small_key 1#32
  obtain ⟨k', hk'⟩ := small_key 3#32
  have := h 1 k k' [15#32] [1#32] [3#32] [2#32] (by omega) rfl rfl rfl rfl (by decide) (by decide) hk hk'
  exact absurd (C121_partial 1 (by omega) k k' _ _ _ _ [2#32] [2#32] rfl rfl rfl rfl rfl rfl (by decide) (by decide) (by decide) (by decide) hk hk' this) (by decide)

/-! ### the choices in X25519 -/

/-- C122, full claim: the events of `X25519`, including the choices of values, do not depend on the private key. -/
def C122_claim : Prop := ∀ k k' u : List U32, k.length = 8 → k'.length = 8 → u.length = 8 → (x25519L k u).trace = (x25519L k' u).trace

/-- The pass that starts from given states looks the same. -/
theorem split_pass {σ τ : Type} {R : σ → τ → Prop} {f : σ → Nat → Leak σ} {g : τ → Nat → Leak τ} {s : σ} {t : τ} (h0 : R s t)
    (hb : ∀ i s t, R s t → Same blank R (f s i) (g t i)) {i : Nat} {p : σ} {q : τ} (hp : (passesL i s f).res = .ok p) (hq : (passesL i t g).res = .ok q) :
    ∀ (n : Nat) (a : σ), (passesL n s f).res = .ok a → (passesL n s f).trace = (passesL n t g).trace → i < n → (f p i).trace = (g q i).trace
  | 0, _, _, _, hi => absurd hi (Nat.not_lt_zero i)
  | n + 1, a, hr, ht, hi => by
    rw [passesL] at hr
    rw [passesL, passesL] at ht
    obtain ⟨p', hp', hr⟩ := ok_of_bind hr
    have hs := Same.passes h0 hb n
    obtain ⟨q', hq', _⟩ := same_other hs hp'
    obtain ⟨t1, t2⟩ := split_trace hs hp' hq' ht
    rcases Nat.lt_or_ge i n with h | h
    · exact split_pass h0 hb hp hq n p' hp' t1 h
    · obtain rfl : i = n := by omega
      obtain rfl := Except.ok.inj (hp.symm.trans hp')
      obtain rfl := Except.ok.inj (hq.symm.trans hq')
      exact (List.cons.inj t2).2

/-- Two private keys that differ in bit 253 -/
def keyA : List U32 := [0#32, 0#32, 0#32, 0#32, 0#32, 0#32, 0#32, 0#32]
def keyB : List U32 := [0#32, 0#32, 0#32, 0#32, 0#32, 0#32, 0#32, 0x20000000#32]
/-- They after `normalize` -/
def normA : List U32 := [0#32, 0#32, 0#32, 0#32, 0#32, 0#32, 0#32, 0x40000000#32]
def normB : List U32 := [0#32, 0#32, 0#32, 0#32, 0#32, 0#32, 0#32, 0x60000000#32]
def base9 : List U32 := [9#32, 0#32, 0#32, 0#32, 0#32, 0#32, 0#32, 0#32]
def one8 : List U32 := [1#32, 0#32, 0#32, 0#32, 0#32, 0#32, 0#32, 0#32]
def zero8 : List U32 := [0#32, 0#32, 0#32, 0#32, 0#32, 0#32, 0#32, 0#32]
/-- The values after two passes of the ladder, the same for both keys -/
def two : LadderState := ⟨[2159607808#32, 2#32, 0#32, 0#32, 0#32, 0#32, 0#32, 0#32], [3701153792#32, 61663#32, 0#32, 0#32, 0#32, 0#32, 0#32, 0#32],
  [419885#32, 0#32, 0#32, 0#32, 0#32, 0#32, 0#32, 2147483648#32], [46637#32, 0#32, 0#32, 0#32, 0#32, 0#32, 0#32, 2147483648#32], true⟩

deriving instance DecidableEq for LadderState

theorem normA_res : (ecNormalizeL keyA).res = .ok normA := by rw [res_normalize]; decide +kernel
theorem normB_res : (ecNormalizeL keyB).res = .ok normB := by rw [res_normalize]; decide +kernel
theorem two_A : (passesL 2 ⟨one8, zero8, base9, one8, false⟩ (fun s n => ladderBodyL normA base9 s (255 - n))).res = .ok two := by
  rw [res_passes]
  simp only [res_ladder]
  decide +kernel
theorem two_B : (passesL 2 ⟨one8, zero8, base9, one8, false⟩ (fun s n => ladderBodyL normB base9 s (255 - n))).res = .ok two := by
  rw [res_passes]
  simp only [res_ladder]
  decide +kernel

theorem C122_false : ¬ C122_claim := fun h => by
  have ht := h keyA keyB base9 rfl rfl rfl
  obtain ⟨r, hr, _⟩ := x25519_spec keyA base9 rfl rfl
  rw [← res_x25519] at hr
  rw [x25519L] at hr ht
  rw [x25519L] at ht
  have s1 : Same blank _ (ecNormalizeL keyA) (ecNormalizeL keyB) := same_normalize rfl
  obtain ⟨_, ht⟩ := split_trace s1 normA_res normB_res ht
  obtain ⟨_, e, hr⟩ := ok_of_bind hr
  obtain rfl := Except.ok.inj (normA_res.symm.trans e)
  have o1 : (bnOfInitL 256 [1#32]).res = .ok one8 := by decide +kernel
  have o0 : (bnOfInitL 256 [0#32]).res = .ok zero8 := by decide +kernel
  obtain ⟨_, e, hr⟩ := ok_of_bind hr
  obtain rfl := Except.ok.inj (o1.symm.trans e)
  obtain ⟨_, ht⟩ := split_trace (same_ofInit _ rfl) o1 o1 ht
  obtain ⟨_, e, hr⟩ := ok_of_bind hr
  obtain rfl := Except.ok.inj (o0.symm.trans e)
  obtain ⟨_, ht⟩ := split_trace (same_ofInit _ rfl) o0 o0 ht
  obtain ⟨a, ha, _⟩ := ok_of_bind hr
  have h0 : SameLadder ⟨one8, zero8, base9, one8, false⟩ ⟨one8, zero8, base9, one8, false⟩ := ⟨rfl, rfl, rfl, rfl⟩
  have hb : ∀ (n : Nat) (s t : LadderState), SameLadder s t → Same blank SameLadder (ladderBodyL normA base9 s (255 - n)) (ladderBodyL normB base9 t (255 - n)) :=
    fun n s t hs => same_ladder (k := normA) (k' := normB) (by decide) rfl _ hs
  have s2 := Same.loop 256 h0 hb
  obtain ⟨b, hb', _⟩ := same_other s2 ha
  obtain ⟨ht, _⟩ := split_trace s2 ha hb' ht
  rw [loopL] at ha ht
  rw [loopL] at ht
  obtain ⟨c, hc, _⟩ := ok_of_bind ha
  have s3 := Same.passes h0 hb 256
  obtain ⟨c', hc', _⟩ := same_other s3 hc
  obtain ⟨ht, _⟩ := split_trace s3 hc hc' ht
  have ht := split_pass h0 hb two_A two_B 256 c hc ht (by omega)
  revert ht
  decide +kernel

end Verif.Props
