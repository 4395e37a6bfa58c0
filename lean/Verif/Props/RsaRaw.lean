import Verif.Props.Rsa
import Verif.Proof.RsaFixed

/-! C139: what the RSA operations without padding allow. -/

namespace Verif.Props
open Verif.Model Verif.Proof Verif.Spec

/-- C139: both operations take products to products. -/
theorem C139_product (w : Nat) (hw : 0 < w) (n e d x y z : List U32) (hn : n.length = w) (he : e.length = w) (hd : d.length = w) (hx : x.length = w) (hy : y.length = w)
    (hz : z.length = w) (hodd : value n % 2 = 1) (h1 : 1 < value n) (hxy : value z ≡ value x * value y [MOD value n]) :
    ∃ kp ks, rsaPubNew (32 * w) n e = .ok kp ∧ rsaPrivNew (32 * w) n d = .ok ks ∧
      (∃ a b c, rsaep (32 * w) kp x = .ok a ∧ rsaep (32 * w) kp y = .ok b ∧ rsaep (32 * w) kp z = .ok c ∧ value c ≡ value a * value b [MOD value n]) ∧
      (∃ a b c, rsadp (32 * w) ks x = .ok a ∧ rsadp (32 * w) ks y = .ok b ∧ rsadp (32 * w) ks z = .ok c ∧ value c ≡ value a * value b [MOD value n]) := by
  obtain ⟨kp, ekp, _, _, okp⟩ := rsaPubNew_spec w hw n e hn he hodd h1
  obtain ⟨ks, eks, _, _, oks⟩ := rsaPrivNew_spec w hw n d hn hd hodd h1
  have key : ∀ (k a b c : Nat), a = canonN (value n) (value x ^ k) → b = canonN (value n) (value y ^ k) → c = canonN (value n) (value z ^ k) → c ≡ a * b [MOD value n] := by
    intro k a b c ha hb hc
    have ea : a ≡ value x ^ k [MOD value n] := by rw [ha]; exact canonN_mod _ _
    have eb : b ≡ value y ^ k [MOD value n] := by rw [hb]; exact canonN_mod _ _
    have ec : c ≡ value z ^ k [MOD value n] := by rw [hc]; exact canonN_mod _ _
    refine ec.trans ((hxy.pow k).trans ?_)
    rw [mul_pow]
    exact (ea.mul eb).symm
  refine ⟨kp, ks, ekp, eks, ?_, ?_⟩
  · obtain ⟨a, ea, _, va⟩ := rsaep_spec okp x hx
    obtain ⟨b, eb, _, vb⟩ := rsaep_spec okp y hy
    obtain ⟨c, ec, _, vc⟩ := rsaep_spec okp z hz
    exact ⟨a, b, c, ea, eb, ec, key _ _ _ _ va vb vc⟩
  · obtain ⟨a, ea, _, va⟩ := rsadp_spec oks x hx
    obtain ⟨b, eb, _, vb⟩ := rsadp_spec oks y hy
    obtain ⟨c, ec, _, vc⟩ := rsadp_spec oks z hz
    exact ⟨a, b, c, ea, eb, ec, key _ _ _ _ va vb vc⟩

/-- A case that meets the hypotheses of `C139_product`. -/
example := C139_product 2 (by decide) [5#32, 9#32] [17#32, 0#32] [3#32, 1#32] [7#32, 0#32] [6#32, 0#32] [42#32, 0#32] rfl rfl rfl rfl rfl rfl (by decide) (by decide) (by decide)

/-- C139: whoever may have any other ciphertext decrypted learns the decryption of `c`: the ciphertext `c * r^e` decrypts to `r` times the decryption of `c`. -/
theorem C139_blind (w : Nat) (hw : 0 < w) (n e d c z : List U32) (r : Nat) (hn : n.length = w) (hd : d.length = w) (hc : c.length = w) (hz : z.length = w)
    (hv : ValidPair (value n) (value e) (value d)) (hzc : value z ≡ value c * r ^ value e [MOD value n]) :
    ∃ ks m m', rsaPrivNew (32 * w) n d = .ok ks ∧ rsadp (32 * w) ks c = .ok m ∧ rsadp (32 * w) ks z = .ok m' ∧ value m' ≡ r * value m [MOD value n] ∧
      ∀ s, r * s ≡ 1 [MOD value n] → value m ≡ s * value m' [MOD value n] := by
  obtain ⟨_, _, h1, hodd⟩ := validPair_pos hv
  obtain ⟨ks, eks, _, _, oks⟩ := rsaPrivNew_spec w hw n d hn hd hodd h1
  obtain ⟨m, em, _, vm⟩ := rsadp_spec oks c hc
  obtain ⟨m', em', _, vm'⟩ := rsadp_spec oks z hz
  have hm : value m ≡ value c ^ value d [MOD value n] := by rw [vm]; exact canonN_mod _ _
  have hm' : value m' ≡ r * value m [MOD value n] := by
    have e1 : value m' ≡ value z ^ value d [MOD value n] := by rw [vm']; exact canonN_mod _ _
    refine e1.trans ((hzc.pow (value d)).trans ?_)
    rw [mul_pow, ← pow_mul, Nat.mul_comm]
    exact (rsa_identity hv r).mul hm.symm
  refine ⟨ks, m, m', eks, em, em', hm', fun s hs => ?_⟩
  have e2 : s * value m' ≡ s * (r * value m) [MOD value n] := Nat.ModEq.mul_left s hm'
  have e3 : s * (r * value m) ≡ 1 * value m [MOD value n] := by
    rw [← Nat.mul_assoc, Nat.mul_comm s r]
    exact hs.mul_right _
  rw [Nat.one_mul] at e3
  exact (e2.trans e3).symm

/-- A case that meets the hypotheses of `C139_blind`. -/
example := C139_blind 1 (by decide) [187#32] [3#32] [107#32] [5#32] [40#32] 2 rfl rfl rfl rfl

/-- C139: a message whose power is smaller than the modulus is not hidden at all: the ciphertext is the power itself. -/
theorem C139_small (w : Nat) (hw : 0 < w) (n e m : List U32) (hn : n.length = w) (he : e.length = w) (hm : m.length = w) (hodd : value n % 2 = 1) (h1 : 1 < value n)
    (hs : value m ^ value e < value n) : ∃ k r, rsaPubNew (32 * w) n e = .ok k ∧ rsaep (32 * w) k m = .ok r ∧ value r = value m ^ value e := by
  obtain ⟨k, ek, rfl, rfl, ok⟩ := rsaPubNew_spec w hw n e hn he hodd h1
  obtain ⟨r, er, lr, vr⟩ := rsaep_spec ok m hm
  exact ⟨k, r, ek, er, vr.trans (canonN_of_lt hs)⟩

/-- A case that meets the hypotheses of `C139_small`. -/
example := C139_small 2 (by decide) [5#32, 9#32] [3#32, 0#32] [7#32, 0#32] rfl rfl rfl (by decide) (by decide) (by decide)

/-- C139: two public keys with the same modulus and exponents without common factor: both ciphertexts of a message give the message. -/
theorem C139_common (w : Nat) (hw : 0 < w) (n e f m : List U32) (a b : Nat) (hn : n.length = w) (he : e.length = w) (hf : f.length = w) (hm : m.length = w)
    (hodd : value n % 2 = 1) (h1 : 1 < value n) (hab : value e * a = value f * b + 1) :
    ∃ k k' r r', rsaPubNew (32 * w) n e = .ok k ∧ rsaPubNew (32 * w) n f = .ok k' ∧ rsaep (32 * w) k m = .ok r ∧ rsaep (32 * w) k' m = .ok r' ∧
      value r ^ a ≡ value r' ^ b * value m [MOD value n] ∧ ∀ s, value r' * s ≡ 1 [MOD value n] → value m ≡ value r ^ a * s ^ b [MOD value n] := by
  obtain ⟨k, ek, _, _, ok⟩ := rsaPubNew_spec w hw n e hn he hodd h1
  obtain ⟨k', ek', _, _, ok'⟩ := rsaPubNew_spec w hw n f hn hf hodd h1
  obtain ⟨r, er, _, vr⟩ := rsaep_spec ok m hm
  obtain ⟨r', er', _, vr'⟩ := rsaep_spec ok' m hm
  have h2 : value r ≡ value m ^ value e [MOD value n] := by rw [vr]; exact canonN_mod _ _
  have h3 : value r' ≡ value m ^ value f [MOD value n] := by rw [vr']; exact canonN_mod _ _
  have h4 : value r ^ a ≡ value r' ^ b * value m [MOD value n] := by
    refine (h2.pow a).trans ?_
    rw [← pow_mul, hab, pow_succ, pow_mul]
    exact ((h3.pow b).mul_right _).symm
  refine ⟨k, k', r, r', ek, ek', er, er', h4, fun s hs => ?_⟩
  have h5 : value r ^ a * s ^ b ≡ value r' ^ b * value m * s ^ b [MOD value n] := h4.mul_right _
  have h6 : value r' ^ b * value m * s ^ b ≡ value m [MOD value n] := by
    rw [Nat.mul_right_comm, ← mul_pow]
    have := (hs.pow b).mul_right (value m)
    rwa [one_pow, Nat.one_mul] at this
  exact (h5.trans h6).symm

/-- A case that meets the hypotheses of `C139_common`. -/
example := C139_common 2 (by decide) [5#32, 9#32] [5#32, 0#32] [7#32, 0#32] [11#32, 2#32] 3 2 rfl rfl rfl rfl (by decide) (by decide) (by decide)

theorem exists_words : ∀ (w v : Nat), v < 2 ^ (32 * w) → ∃ m : List U32, m.length = w ∧ value m = v
  | 0, v, h => ⟨[], rfl, by rw [value]; simp at h; omega⟩
  | w + 1, v, h => by
    have h' : v / 2 ^ 32 < 2 ^ (32 * w) := by
      rw [Nat.mul_succ, Nat.add_comm, pow_add] at h
      exact Nat.div_lt_of_lt_mul h
    obtain ⟨m, l, e⟩ := exists_words w (v / 2 ^ 32) h'
    refine ⟨BitVec.ofNat 32 v :: m, by rw [List.length_cons, l], ?_⟩
    rw [value, e, BitVec.toNat_ofNat]
    exact Nat.mod_add_div v (2 ^ 32)

/-- The messages below the modulus that encryption returns unchanged. -/
def Unchanged (w : Nat) (k : RsaPub) (n : Nat) : Type := {m : List U32 // m.length = w ∧ value m < n ∧ rsaep (32 * w) k m = .ok m}

/-- C139: the exact number of messages that encryption leaves unchanged, which is at least nine for an odd exponent. -/
theorem C139_fixed (w : Nat) (hw : 0 < w) (n e : List U32) (p q : Nat) (hn : n.length = w) (he : e.length = w) (hp : p.Prime) (hq : q.Prime) (hpq : p ≠ q)
    (hp2 : p ≠ 2) (hq2 : q ≠ 2) (hN : value n = p * q) (he0 : value e ≠ 0) :
    ∃ k, rsaPubNew (32 * w) n e = .ok k ∧
      Nat.card (Unchanged w k (value n)) = (Nat.gcd (p - 1) (value e - 1) + 1) * (Nat.gcd (q - 1) (value e - 1) + 1) ∧
      (value e % 2 = 1 → 9 ≤ Nat.card (Unchanged w k (value n))) := by
  have ho : ∀ x : Nat, x.Prime → x ≠ 2 → x % 2 = 1 := fun x hx h2 => hx.eq_two_or_odd.resolve_left h2
  have hodd : value n % 2 = 1 := by rw [hN, Nat.mul_mod, ho p hp hp2, ho q hq hq2]
  have h1 : 1 < value n := by rw [hN]; have := hp.two_le; have := hq.two_le; nlinarith
  obtain ⟨k, ek, _, _, ok⟩ := rsaPubNew_spec w hw n e hn he hodd h1
  have hcop : Nat.Coprime p q := (Nat.coprime_primes hp hq).mpr hpq
  have fixed : ∀ m : List U32, m.length = w → value m < value n → (rsaep (32 * w) k m = .ok m ↔ value m ^ value e % value n = value m) := by
    intro m hm hlt
    obtain ⟨r, er, lr, vr⟩ := rsaep_spec ok m hm
    rw [er]
    constructor
    · intro h
      rw [Except.ok.inj h] at vr
      have := canonN_mod (value n) (value m ^ value e)
      rw [← vr, Nat.mod_eq_of_lt hlt] at this
      exact this.symm
    · intro h
      congr 1
      apply value_inj (by omega)
      rw [vr]
      by_cases hz : value m = 0
      · rw [hz, zero_pow he0, canonN_of_lt (by omega)]
      · rw [canonN_of_mod (by rw [h]; exact hz), h]
  have hcard : Nat.card (Unchanged w k (value n)) = (Nat.gcd (p - 1) (value e - 1) + 1) * (Nat.gcd (q - 1) (value e - 1) + 1) := by
    obtain ⟨j, hj⟩ : ∃ j, value e = j + 1 := ⟨value e - 1, by omega⟩
    have e1 := ring_fixed p q j hp hq hpq
    have e2 := range_fixed (value n) (value e) (by omega)
    rw [hj, Nat.add_sub_cancel, ← e1, ← hN, ← hj, ← e2]
    refine Nat.card_congr (Equiv.ofBijective (fun m => ⟨value m.1, m.2.2.1, (fixed m.1 m.2.1 m.2.2.1).mp m.2.2.2⟩) ⟨?_, ?_⟩)
    · rintro ⟨a, la, _⟩ ⟨b, lb, _⟩ h
      exact Subtype.ext (value_inj (by rw [la, lb]) (Subtype.mk.inj h))
    · rintro ⟨v, hv, hf⟩
      have hlt := value_lt n
      rw [hn] at hlt
      obtain ⟨m, lm, rfl⟩ := exists_words w v (hv.trans hlt)
      exact ⟨⟨m, lm, hv, (fixed m lm hv).mpr hf⟩, rfl⟩
  refine ⟨k, ek, hcard, fun hodde => ?_⟩
  rw [hcard]
  have two : ∀ x : Nat, x.Prime → x ≠ 2 → 2 ≤ Nat.gcd (x - 1) (value e - 1) := by
    intro x hx h2
    have hx3 := hx.two_le
    have := ho x hx h2
    refine Nat.le_of_dvd (Nat.gcd_pos_of_pos_left _ (by omega)) (Nat.dvd_gcd ?_ ?_) <;> omega
  have hp9 := two p hp hp2
  have hq9 := two q hq hq2
  nlinarith

/-- The hypotheses hold for a key with modulus 11 * 17 = 187, exponent 3 and private exponent 107; the exponents 3 and 7 satisfy `3 * 5 = 7 * 2 + 1`. -/
example : ValidPair (value [187#32]) (value [3#32]) (value [107#32]) ∧ value [187#32] = 11 * 17 ∧ value [2#32] ^ value [3#32] < value [187#32] ∧
    value [3#32] * 5 = value [7#32] * 2 + 1 ∧ value [6#32] ≡ value [2#32] * value [3#32] [MOD value [187#32]] :=
  ⟨⟨11, 17, by norm_num, by norm_num, by decide, by decide, by decide, rfl, rfl⟩, rfl, by decide, rfl, rfl⟩

end Verif.Props
