import Verif.Proof.Cert
import Verif.Proof.Mont

/-! Reading RSA keys of any size, and Montgomery constants for any modulus. -/

namespace Verif.Proof
open Verif.Model Verif.Spec

theorem recInv_total (w : Nat) (hw : 0 < w) (A : List U32) (hA : A.length = w) : ∃ r, recInv (32 * w) A = .ok r ∧ r.length = w := by
  induction w using Nat.strongRecOn generalizing A with
  | ind w ih =>
    rw [recInv, bnN_mul32]
    by_cases h1 : 1 < w
    · rw [dif_pos h1]
      set w' := (w + 1) / 2 with hw'
      have ek : (32 * w / 32 + 1) / 2 * 32 = 32 * w' := by
        rw [Nat.mul_div_cancel_left _ (by decide)]; omega
      rw [ek]
      obtain ⟨half, e1, l1, v1⟩ := bnSlice_value (32 * w') A 0 (by rw [bnN_mul32]; omega)
      rw [bnN_mul32] at l1
      obtain ⟨r0, e2, l2⟩ := ih w' (by omega) (by omega) half l1
      rw [e1, loop_ok_bind, e2, loop_ok_bind]
      dsimp only
      set r := bnConvert (32 * w) (32 * w') r0 with hr
      have lr : r.length = w := by rw [hr, bnConvert_length, bnN_mul32]
      obtain ⟨rA, e3, l3, _⟩ := bnMul_w w r A lr hA
      obtain ⟨rAs, e4, l4, _⟩ := bnSlice_value (32 * w) rA 0 (by rw [bnN_mul32]; omega)
      rw [bnN_mul32] at l4
      rw [e3, loop_ok_bind, e4, loop_ok_bind]
      obtain ⟨l5, _⟩ := bnOfU32_spec (32 * w) (by omega) 2#32
      rw [bnN_mul32] at l5
      obtain ⟨rv, e6, l6, _⟩ := bnMul_w w r (bnSub (bnOfU32 (32 * w) 2#32) rAs).2 lr (by rw [bnSub_length _ _ (by omega), l5])
      rw [e6, loop_ok_bind]
      exact ⟨_, rfl, by rw [bnConvert_length, bnN_mul32]⟩
    · rw [dif_neg h1]
      have h2 : w = 1 := by omega
      subst h2
      obtain ⟨a, rfl⟩ := List.length_eq_one_iff.mp hA
      refine ⟨_, rfl, ?_⟩
      rw [(bnOfU32_spec (32 * 1) (by omega) _).1, bnN_mul32]

theorem redc_total (w : Nat) (N Ninv v : List U32) (hN : N.length = w) (hI : Ninv.length = w) (hv : v.length = 2 * w) :
    ∃ t, redc (32 * w) N Ninv v = .ok t ∧ t.length = w := by
  obtain ⟨v0, e1, l1, _⟩ := bnSlice_value (32 * w) v 0 (by rw [bnN_mul32]; omega)
  rw [bnN_mul32] at l1
  obtain ⟨vn, e3, l3, _⟩ := bnMul_w w v0 Ninv l1 hI
  obtain ⟨m, e4, l4, _⟩ := bnSlice_value (32 * w) vn 0 (by rw [bnN_mul32]; omega)
  rw [bnN_mul32] at l4
  obtain ⟨mn, e5, l5, _⟩ := bnMul_w w m N l4 hN
  have ladd := bnAdd_length v mn (by omega)
  obtain ⟨t, e6, l6, _⟩ := bnSlice_value (32 * w) (bnAdd v mn).2 (32 * w) (by rw [bnN_mul32, Nat.mul_div_cancel_left _ (by decide)]; omega)
  rw [bnN_mul32] at l6
  have lsub := bnSub_length t N (by omega)
  rw [redc, e1, loop_ok_bind, e3, loop_ok_bind, e4, loop_ok_bind, e5, loop_ok_bind]
  dsimp only
  rw [e6, loop_ok_bind]
  refine ⟨_, rfl, ?_⟩
  split
  · rw [lsub, l6]
  · exact l6

/-- The constructor of the Montgomery state: it runs for ever exactly for the modulus 0. -/
theorem montNew_any (w : Nat) (hw : 0 < w) (N : List U32) (hN : N.length = w) :
    if value N = 0 then montNew (32 * w) N = .error .diverges else ∃ st, montNew (32 * w) N = .ok st := by
  obtain ⟨inv, e1, l1⟩ := recInv_total w hw N hN
  have l2 := (bnNeg_value inv).1
  obtain ⟨l3, v3⟩ := bnOfU32_spec (32 * w) (by omega) 1#32
  rw [bnN_mul32] at l3
  have ladd := bnAdd_length (bnNeg inv) (bnOfU32 (32 * w) 1#32) (by omega)
  have eN : bnN (2 * (32 * w) + 1) = 2 * w + 1 := by unfold bnN; omega
  obtain ⟨l4, v4⟩ := bnOfU32_spec (2 * (32 * w) + 1) (by omega) 0#32
  rw [eN] at l4
  obtain ⟨R, e5, l5, v5⟩ := bnSetBit_spec (bnOfU32 (2 * (32 * w) + 1) 0#32) (2 * (32 * w)) (by rw [l4]; omega)
  rw [l4] at l5
  split
  · next h0 =>
    rw [montNew, e1, loop_ok_bind]
    dsimp only
    rw [e5, loop_ok_bind, bnNaiveReduce_zero _ _ _ _ (by omega) (by rw [bnN_mul32]; exact hN) (by rw [h0, Nat.zero_mod])]
    rfl
  · next n0 =>
    have nlt := value_lt N
    rw [hN] at nlt
    obtain ⟨sh, _, s1, s2⟩ := shift_exists (2 * w + 1) (value N) n0 (lt_of_lt_of_le nlt (Nat.pow_le_pow_right (by decide) (by omega)))
    have emin : 32 * (min (32 * w) (2 * (32 * w) + 1) / 32) = 32 * w := by rw [Nat.min_eq_left (by omega), Nat.mul_div_cancel_left _ (by decide)]
    obtain ⟨R2, e6, l6, v6⟩ := bnNaiveReduce_spec (2 * (32 * w) + 1) (32 * w) R N (by rw [eN]; exact l5) (by rw [bnN_mul32]; exact hN) n0
      (by rw [emin]; exact nlt) sh (by rw [eN]; exact s1) (by rw [eN]; exact s2)
    rw [bnN_mul32] at l6
    obtain ⟨lc, vc⟩ := bnConvert_up w R2 l6
    obtain ⟨R1, e7, l7⟩ := redc_total w N (bnAdd (bnNeg inv) (bnOfU32 (32 * w) 1#32)).2 _ hN (by omega) lc
    obtain ⟨sq, e8, l8, v8⟩ := bnMul_w w R2 R2 l6 l6
    obtain ⟨R3, e9, l9⟩ := redc_total w N (bnAdd (bnNeg inv) (bnOfU32 (32 * w) 1#32)).2 _ hN (by omega) l8
    refine ⟨⟨N, (bnAdd (bnNeg inv) (bnOfU32 (32 * w) 1#32)).2, R1, R2, R3⟩, ?_⟩
    rw [montNew, e1, loop_ok_bind]
    dsimp only
    rw [e5, loop_ok_bind, e6, loop_ok_bind, e7, loop_ok_bind, e8, loop_ok_bind, e9]
    rfl

/-- What becomes of a key. -/
structure KeyIs (k : RsaPub) (n e : Nat) : Prop where
  ln : k.n.length = 128
  le : k.e.length = 128
  n : value k.n = n
  e : value k.e = e
  new : rsaPubNew 4096 k.n k.e = .ok k

theorem parseRsaPubkey_any {v : View} {n e : Nat} {l post : List Byte} (h : At v (rsaKeyDer n e ++ l) post) (hl : (rsaKeyDer n e).length < 2 ^ 64) :
    if e % 2 ^ 4096 < 17 then parseRsaPubkey v = .error .thrown else
    if n % 2 ^ 4096 = 0 then parseRsaPubkey v = .error .diverges else
    ∃ k v', parseRsaPubkey v = .ok (k, v') ∧ At v' l post ∧ KeyIs k (n % 2 ^ 4096) (e % 2 ^ 4096) := by
  have l1 := le_tlv 0x30#8 (integerDer n ++ integerDer e)
  rw [← rsaKeyDer] at l1
  rw [List.length_append] at l1
  have l2 := le_tlv 0x02#8 (integerContent n)
  have l3 := le_tlv 0x02#8 (integerContent e)
  rw [← integerDer] at l2 l3
  obtain ⟨v', e1, ha⟩ := read_tlv h (by rw [List.length_append]; omega)
  obtain ⟨x, v2, e2, ha2, lx, vx⟩ := parseBignum_spec 128 (at_view (integerDer n ++ integerDer e) (l ++ post)) (by omega)
  have ha2' : At v2 (integerDer e ++ []) (l ++ post) := by rw [List.append_nil]; exact ha2
  obtain ⟨y, v3, e3, _, ly, vy⟩ := parseBignum_spec 128 ha2' (by omega)
  rw [show 32 * 128 = 4096 from rfl] at e2 e3 vx vy
  have hlt : bnLt y (bnOfU32 4096 17#32) = true ↔ e % 2 ^ 4096 < 17 := by
    have h17 := bnOfU32_spec 4096 (by decide) 17#32
    rw [(Props.C19_compare y (bnOfU32 4096 17#32) (by rw [ly, h17.1]; rfl)).2, vy, h17.2]; rfl
  have hm := montNew_any 128 (by decide) x lx
  rw [show 32 * 128 = 4096 from rfl, vx] at hm
  split
  · next h17 => rw [parseRsaPubkey, e1, ok_bind, e2, ok_bind, e3, ok_bind, if_pos (hlt.mpr h17)]
  · next h17 =>
    split
    · next h0 =>
      rw [if_pos h0] at hm
      rw [parseRsaPubkey, e1, ok_bind, e2, ok_bind, e3, ok_bind, if_neg (fun h => h17 (hlt.mp h)), rsaPubNew, hm, error_bind, error_bind]
    · next h0 =>
      rw [if_neg h0] at hm
      obtain ⟨st, est⟩ := hm
      have ek : rsaPubNew 4096 x y = .ok ⟨st, x, y⟩ := by rw [rsaPubNew, est, ok_bind]; rfl
      refine ⟨⟨st, x, y⟩, v', ?_, ha, lx, ly, vx, vy, ek⟩
      rw [parseRsaPubkey, e1, ok_bind, e2, ok_bind, e3, ok_bind, if_neg (fun h => h17 (hlt.mp h)), ek, ok_bind]; rfl

theorem parsePublicKey_any {v : View} {par : List Byte} {n e : Nat} {post : List Byte}
    (h : At v (tlv 0x30#8 (tlv 0x06#8 (oidContent [1, 2, 840, 113549, 1, 1, 1]) ++ par) ++ tlv 0x03#8 (0x00#8 :: rsaKeyDer n e)) post)
    (hl : (rsaSpkiDer par n e).length < 2 ^ 64) :
    if e % 2 ^ 4096 < 17 then parsePublicKey v = .error .thrown else
    if n % 2 ^ 4096 = 0 then parsePublicKey v = .error .diverges else
    ∃ k, parsePublicKey v = .ok (some k) ∧ KeyIs k (n % 2 ^ 4096) (e % 2 ^ 4096) := by
  have l1 := le_tlv 0x30#8 (tlv 0x30#8 (tlv 0x06#8 (oidContent [1, 2, 840, 113549, 1, 1, 1]) ++ par) ++ tlv 0x03#8 (0x00#8 :: rsaKeyDer n e))
  rw [← rsaSpkiDer, List.length_append] at l1
  have l2 := le_tlv 0x30#8 (tlv 0x06#8 (oidContent [1, 2, 840, 113549, 1, 1, 1]) ++ par)
  have l3 := le_tlv 0x03#8 (0x00#8 :: rsaKeyDer n e)
  rw [List.length_cons] at l3
  obtain ⟨v1, e1, ha1⟩ := read_tlv h (by omega)
  have hin := at_view (tlv 0x06#8 (oidContent [1, 2, 840, 113549, 1, 1, 1]) ++ par) (tlv 0x03#8 (0x00#8 :: rsaKeyDer n e) ++ post)
  obtain ⟨v2, e2, _⟩ := read_tlv hin (by decide +kernel)
  have ha1' : At v1 (tlv 0x03#8 (0x00#8 :: rsaKeyDer n e) ++ []) post := by rw [List.append_nil]; exact ha1
  obtain ⟨v3, e3, _⟩ := read_tlv ha1' (by rw [List.length_cons]; omega)
  have hd : (Span.mk ((0x00#8 :: rsaKeyDer n e) ++ ([] ++ post)) (0x00#8 :: rsaKeyDer n e).length).drop 1 = .ok ⟨rsaKeyDer n e ++ post, (rsaKeyDer n e).length⟩ := by
    rw [Span.drop, if_pos (by simp)]; rfl
  have hk := parseRsaPubkey_any (l := []) (by rw [List.append_nil]; exact at_view (rsaKeyDer n e) post) (by omega)
  have start : parsePublicKey v = (do let k ← parseRsaPubkey (viewOf ⟨rsaKeyDer n e ++ post, (rsaKeyDer n e).length⟩); return some k.1) := by
    rw [parsePublicKey, e1, ok_bind, if_neg (by simp), e2, ok_bind, if_neg (by simp), if_neg (by rw [span_bytes, oidRsa_eq]; simp), e3, ok_bind, hd, ok_bind]
  rw [start]
  split
  · next h17 => rw [if_pos h17] at hk; rw [hk]; rfl
  · next h17 =>
    rw [if_neg h17] at hk
    split
    · next h0 => rw [if_pos h0] at hk; rw [hk]; rfl
    · next h0 =>
      rw [if_neg h0] at hk
      obtain ⟨k, v', ek, _, r⟩ := hk
      exact ⟨k, by rw [ek]; rfl, r⟩

end Verif.Proof
