import Verif.Proof.Collide25519
import Verif.Props.X25519

/-! C91 and C92: shared secrets that are zero and keys that coincide. -/

namespace Verif.Props
open Verif.Model Verif.Spec Verif.Proof

/-- The u-coordinates of the points of curve25519 and its twist whose order divides 8 (the list published with curve25519, reduced). -/
def lowOrderU : List Nat :=
  [0, 1,
   325606250916557431795983626356110631294008115727848805560023387167927233504,
   39382357235489614581723060781553021112529911719440698176882885853963445705823,
   57896044618658097711785492504343953926634992332820282019728792003956564819948]

/-- The order of the base point: RFC 7748 section 4.1. -/
def baseOrder : Nat := 0x1000000000000000000000000000000014def9dea2f79cd65812631a5cf5d3ed

/-- The order of the large subgroup of the twist. -/
def twistOrder : Nat := 14474011154664524427946373126085988481603263447650325797860494125407373907997

/-- The scalar without its three cleared bits: bits 3..253 of the key and the bit that is always set. -/
def scalarOf (k : List U32) : Nat := value k % 2 ^ 254 / 8 + 2 ^ 251

theorem scalar_range (k : List U32) : 2 ^ 251 ≤ scalarOf k ∧ scalarOf k < 2 ^ 252 ∧ value k % 2 ^ 254 / 8 * 8 + 2 ^ 254 = 8 * scalarOf k := by
  have := Nat.mod_lt (value k) (show 0 < 2 ^ 254 by decide +kernel)
  unfold scalarOf
  omega

theorem x25519_xmul (k u : List U32) (hk : k.length = 8) (hu : u.length = 8) :
    ∃ r, x25519 k u = .ok r ∧ r.length = 8 ∧ value r = (xmul 255 (8 * scalarOf k) (value u : ZMod p25519)).val := by
  obtain ⟨r, e, l, v⟩ := x25519_rfc k u hk hu
  refine ⟨r, e, l, ?_⟩
  rw [v, rfc7748_eq, (scalar_range k).2.2]

theorem low_iff (n : Nat) : LowOrder (n : ZMod p25519) ↔ n % p25519 ∈ lowOrderU := by
  have key : ∀ c : Nat, c < p25519 → ((n : ZMod p25519) = (c : ZMod p25519) ↔ n % p25519 = c) := by
    intro c hc
    rw [ZMod.natCast_eq_natCast_iff, Nat.ModEq, Nat.mod_eq_of_lt hc]
  have k0 := key 0 (by decide +kernel)
  have k1 := key 1 (by decide +kernel)
  have k2 := key u8 (by decide +kernel)
  have k3 := key u8' (by decide +kernel)
  have k4 := key (p25519 - 1) (by decide +kernel)
  rw [Nat.cast_zero] at k0
  rw [Nat.cast_one] at k1
  rw [Nat.cast_sub (by decide +kernel), ZMod.natCast_self, Nat.cast_one, zero_sub] at k4
  have hlist : lowOrderU = [0, 1, u8, u8', p25519 - 1] := by decide +kernel
  rw [LowOrder, hlist, k0, k1, k2, k3, k4]
  simp only [List.mem_cons, List.not_mem_nil, or_false]
  constructor
  · rintro (h | h | h | h | h)
    · exact .inl h
    · exact .inr (.inl h)
    · exact .inr (.inr (.inr (.inr h)))
    · exact .inr (.inr (.inl h))
    · exact .inr (.inr (.inr (.inl h)))
  · rintro (h | h | h | h | h)
    · exact .inl h
    · exact .inr (.inl h)
    · exact .inr (.inr (.inr (.inl h)))
    · exact .inr (.inr (.inr (.inr h)))
    · exact .inr (.inr (.inl h))

/-! ### C91 -/

/-- C91 in full: whatever a peer sends, the shared secret is not the all-zero string. -/
def C91_claim : Prop := ∀ k u : List U32, k.length = 8 → u.length = 8 → ∀ r, x25519 k u = .ok r → value r ≠ 0

/-- C91, the exact truth for all keys and all received values: the shared secret is zero exactly for the five residues of low order,
independently of the private key. Missing from the claim: these residues, which the code does not reject. -/
theorem C91_partial (k u : List U32) (hk : k.length = 8) (hu : u.length = 8) :
    ∃ r, x25519 k u = .ok r ∧ (value r = 0 ↔ value u % p25519 ∈ lowOrderU) := by
  obtain ⟨r, e, l, v⟩ := x25519_xmul k u hk hu
  refine ⟨r, e, ?_⟩
  obtain ⟨h1, h2, _⟩ := scalar_range k
  rw [v, ZMod.val_eq_zero, xmul_zero_iff _ (by omega) h2, low_iff]

/-- A case that meets the hypotheses of `C91_partial`. -/
example := C91_partial (List.replicate 8 3#32) (List.replicate 8 9#32) rfl rfl

/-- C91 fails: the peer sends 1 and every private key gives the shared secret 0. -/
theorem C91_false : ¬ C91_claim := by
  intro h
  obtain ⟨r, e, hr⟩ := C91_partial ecZero (1#32 :: List.replicate 7 0#32) (by decide) (by decide)
  exact h ecZero (1#32 :: List.replicate 7 0#32) (by decide) (by decide) r e (hr.mpr (by decide +kernel))

/-- The received strings that give a zero secret for one private key and for another are the same. -/
theorem C91_key_independent (k k' u : List U32) (hk : k.length = 8) (hk' : k'.length = 8) (hu : u.length = 8) :
    ∃ r r', x25519 k u = .ok r ∧ x25519 k' u = .ok r' ∧ (value r = 0 ↔ value r' = 0) := by
  obtain ⟨r, e, h⟩ := C91_partial k u hk hu
  obtain ⟨r', e', h'⟩ := C91_partial k' u hk' hu
  exact ⟨r, r', e, e', h.trans h'.symm⟩

/-- A case that meets the hypotheses of `C91_key_independent`. -/
example := C91_key_independent (List.replicate 8 3#32) (List.replicate 8 4#32) (List.replicate 8 9#32) rfl rfl rfl

/-- A public key computed by this code never is one of these residues. -/
theorem C91_honest (k : List U32) (hk : k.length = 8) (u : List U32) (hu : u.length = 8) (h9 : value u = 9) :
    ∃ r, x25519 k u = .ok r ∧ r.length = 8 ∧ value r % p25519 ∉ lowOrderU := by
  obtain ⟨r, e, l, v⟩ := x25519_xmul k u hk hu
  refine ⟨r, e, l, ?_⟩
  rw [← low_iff, v, h9, ZMod.natCast_val, ZMod.cast_id]
  obtain ⟨h1, h2, _⟩ := scalar_range k
  obtain ⟨w, hw⟩ := exists_point ((9 : Nat) : ZMod p25519)
  have hx := xmul_uCoord 255 (8 * scalarOf k) (by decide) (by omega) (by omega) ((9 : Nat) : ZMod p25519) w hw
  obtain ⟨_, ho⟩ := nine_order w hw
  intro hl
  have h9n : ¬ LowOrder ((9 : Nat) : ZMod p25519) := by rw [low_iff]; decide +kernel
  -- the point itself
  have hne : (8 * scalarOf k) • (.some _ w hw : Pt) ≠ 0 := by
    intro hc
    apply h9n
    rw [← low_point _ (scalarOf k) (by omega) h2 w hw, hc]
    rfl
  revert hx hne
  generalize hQ : (8 * scalarOf k) • (.some _ w hw : Pt) = Q
  intro hx hne
  cases Q with
  | zero => exact hne rfl
  | some X Y hns =>
    have eX : X = algebraMap (ZMod p25519) Kc (xmul 255 (8 * scalarOf k) ((9 : Nat) : ZMod p25519)) := hx.symm
    subst eX
    have h8 := (eight_zero_iff _ Y hns).mpr hl
    rw [← hQ, smul_smul, ← addOrderOf_dvd_iff_nsmul_eq_zero, ho] at h8
    have hpr := ell_prime
    have hbig : 2 ^ 252 < ell := by decide +kernel
    rcases hpr.dvd_mul.mp h8 with h | h
    · exact absurd (Nat.le_of_dvd (by decide) h) (by omega)
    · rcases hpr.dvd_mul.mp h with h | h
      · exact absurd (Nat.le_of_dvd (by decide) h) (by omega)
      · exact absurd (Nat.le_of_dvd (by omega) h) (by omega)

/-- All five residues are below the prime; the honest value 9 is not among them. -/
example : (∀ x ∈ lowOrderU, x < p25519) ∧ 9 ∉ lowOrderU := by decide +kernel

/-! ### C92 -/

/-- C92 in full: different clamped private keys have different public keys. -/
def C92_claim : Prop := ∀ k k' u : List U32, k.length = 8 → k'.length = 8 → u.length = 8 → value u = 9 → scalarOf k ≠ scalarOf k' →
  x25519 k u ≠ x25519 k' u

/-- The order of the large subgroup that `u` belongs to. -/
noncomputable def orderOfU (u : Nat) : Nat := by
  classical exact if IsSquare ((u : ZMod p25519) ^ 3 + 486662 * (u : ZMod p25519) ^ 2 + u) then baseOrder else twistOrder

theorem orderOfU_eq (u : Nat) : orderOfU u = bigOrder (u : ZMod p25519) := by
  have h1 : baseOrder = ell := by decide +kernel
  have h2 : twistOrder = ell' := by decide +kernel
  unfold orderOfU bigOrder
  rw [h1, h2]
  rfl

/-- C92, the exact truth for every `u` that is not of low order: two keys give the same result exactly if their scalars are equal or add up to the
order of the subgroup. -/
theorem C92_exact (k k' u : List U32) (hk : k.length = 8) (hk' : k'.length = 8) (hu : u.length = 8) (hlow : value u % p25519 ∉ lowOrderU) :
    x25519 k u = x25519 k' u ↔ scalarOf k = scalarOf k' ∨ scalarOf k + scalarOf k' = orderOfU (value u) := by
  obtain ⟨r, e, l, v⟩ := x25519_xmul k u hk hu
  obtain ⟨r', e', l', v'⟩ := x25519_xmul k' u hk' hu
  obtain ⟨h1, h2, _⟩ := scalar_range k
  obtain ⟨h1', h2', _⟩ := scalar_range k'
  rw [orderOfU_eq, ← xmul_eq_iff _ _ h1 h2 h1' h2' _ (by rwa [low_iff]), e, e']
  constructor
  · intro h
    have := Except.ok.inj h
    rw [this, v'] at v
    exact (ZMod.val_injective p25519 v).symm
  · intro h
    rw [h, ← v'] at v
    rw [value_inj (by omega) v]

theorem orderOfU_nine : orderOfU 9 = baseOrder := by
  unfold orderOfU
  rw [if_pos]
  have hr : (((9 : Nat) : ZMod p25519) ^ 3 + 486662 * ((9 : Nat) : ZMod p25519) ^ 2 + ((9 : Nat) : ZMod p25519)) =
    (((14781619447589544791020593568409986887264606134616475288964881837755586237401 : Nat) : ZMod p25519)) *
    (((14781619447589544791020593568409986887264606134616475288964881837755586237401 : Nat) : ZMod p25519)) := by
    have := nat_eq (9 ^ 3 + 486662 * 9 ^ 2 + 9) (14781619447589544791020593568409986887264606134616475288964881837755586237401 *
      14781619447589544791020593568409986887264606134616475288964881837755586237401) (by decide +kernel)
    rw [← Nat.cast_mul, ← this]
    push_cast
    rfl
  exact ⟨_, hr⟩

/-- C92 for public keys: they coincide exactly for equal scalars and for scalars that add up to the order of the base point. Missing from the claim:
the second case. -/
theorem C92_partial (k k' u : List U32) (hk : k.length = 8) (hk' : k'.length = 8) (hu : u.length = 8) (h9 : value u = 9) :
    x25519 k u = x25519 k' u ↔ scalarOf k = scalarOf k' ∨ scalarOf k + scalarOf k' = baseOrder := by
  rw [C92_exact k k' u hk hk' hu (by rw [h9]; decide +kernel), h9, orderOfU_nine]

/-- A key whose scalar is greater than the order minus `2^251` (all but a fraction of less than `2^-126` of the keys) shares its public key only with
keys of the same scalar. -/
theorem C92_unique (k k' u : List U32) (hk : k.length = 8) (hk' : k'.length = 8) (hu : u.length = 8) (h9 : value u = 9)
    (hbig : baseOrder - 2 ^ 251 < scalarOf k) (he : x25519 k u = x25519 k' u) : scalarOf k = scalarOf k' := by
  rcases (C92_partial k k' u hk hk' hu h9).mp he with h | h
  · exact h
  · have := (scalar_range k').1
    omega

/-- The key whose scalar is the order of the base point minus `2^251`. -/
def twinKey : List U32 := (List.range 8).map (fun i => BitVec.ofNat 32 (8 * (baseOrder - 2 ^ 251) / 2 ^ (32 * i)))

/-- C92 fails: the keys 0 and `twinKey` have the same public key. -/
theorem C92_false : ¬ C92_claim := by
  intro h
  refine h ecZero twinKey (9#32 :: List.replicate 7 0#32) (by decide) (by decide +kernel) (by decide) (by decide +kernel) (by decide +kernel) ?_
  exact (C92_partial _ _ _ (by decide) (by decide +kernel) (by decide) (by decide +kernel)).mpr (.inr (by decide +kernel))

/-- a key that meets the hypothesis of `C92_unique` -/
example : baseOrder - 2 ^ 251 < scalarOf (List.replicate 8 0xFFFFFFFF#32) ∧ (List.replicate 8 0xFFFFFFFF#32 : List U32).length = 8 := by decide +kernel

/-- The base point has the order that RFC 7748 gives, a prime; the curve has eight times as many points with coordinates in the prime field. -/
theorem C92_base_order (v : Kc) (h : (curve25519 Kc).Nonsingular (algebraMap _ _ ((9 : Nat) : ZMod p25519)) v) :
    addOrderOf (.some _ v h : Pt) = baseOrder ∧ baseOrder.Prime := by
  have h1 : baseOrder = ell := by decide +kernel
  rw [h1]
  exact ⟨(nine_order v h).2, ell_prime⟩

/-- A case that meets the hypotheses of `C92_base_order`. -/
example : ∃ v : Kc, (curve25519 Kc).Nonsingular (algebraMap _ _ ((9 : Nat) : ZMod p25519)) v := by
  have := C84_point_exists [9#32, 0#32, 0#32, 0#32, 0#32, 0#32, 0#32, 0#32]
  rwa [show value [9#32, 0#32, 0#32, 0#32, 0#32, 0#32, 0#32, 0#32] = 9 by decide +kernel] at this

end Verif.Props
