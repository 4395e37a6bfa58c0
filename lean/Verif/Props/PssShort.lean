import Verif.Props.PssSizes

/-! C82: what the PSS verifier does with signatures that are too short, for every length and every modulus. -/

namespace Verif.Props

open Verif.Model Verif.Spec Verif.Proof

/-- No room for the byte 0x01 in front of the salt: the code writes before the buffer. -/
theorem generatePss_ub (c : HashClass) (data salt : List Byte) (k : Nat) (hk : k = hashsize c + 1 + salt.length) (hk2 : k ≤ 2 ^ 32) :
    generatePss c data salt k = .error .ub := by
  rw [generatePss]
  dsimp only
  obtain ⟨mask, e1, l1⟩ := mgf_length c (hdata c (hadd c (hadd c (hadd c (hnew0 c) (List.replicate 8 0#8)) data) salt)) (k - hashsize c - 1) (by omega)
  rw [szSub_eq (b := hashsize c) (by omega) (by omega), szSub_eq (by omega) (by omega), e1, loop_ok_bind, l1,
    szSub_eq (b := salt.length) (by omega) (by omega), rd_ub]
  · rfl
  · rw [l1, szSub_wrap (by omega) (by omega)]; omega

/-- C82, exactly: what the code does with every signature shorter than `2·hLen + 2`. Up to `hLen` bytes it reads before the signature; with `hLen + 1` and
`2·hLen + 1` bytes it writes before the buffer of the data block; with the lengths between it verifies with an empty salt. Missing: the refusal. -/
theorem C82_exact_partial (w : Nat) (n e : List U32) (c : HashClass) (message sig : List Byte) (hw : 0 < w) (hn : n.length = w) (he : e.length = w)
    (hodd : value n % 2 = 1) (h1 : 1 < value n) (hfit : sig.length ≤ 4 * w) (hm : message.length < 2 ^ 61) (hs : sig.length < 2 * digestLength c + 2) :
    (do let k ← rsaPubNew (32 * w) n e; validatePss (32 * w) k c (digestLength c) message sig) =
      if sig.length ≤ digestLength c + 1 ∨ sig.length = 2 * digestLength c + 1 then .error .ub
      else .ok (emsaPssVerify (digest c) (digestLength c) 0 message (i2osp (beNat sig ^ value e % value n) sig.length) (8 * sig.length - 1)) := by
  obtain ⟨kp, ekp, _, _, okp⟩ := rsaPubNew_spec w hw n e hn he hodd h1
  have hle := hashsize_le c
  have hpos := hashsize_pos c
  rw [← hashsize_eq] at hs ⊢
  obtain ⟨lb, vb⟩ := bnOfBytes_rev w sig hfit
  obtain ⟨r, er, lr, vr⟩ := rsaep_spec okp _ lb
  have hil : (i2osp (value r) sig.length).length = sig.length := i2osp_length _ _
  rw [ekp, loop_ok_bind]
  by_cases c1 : sig.length ≤ hashsize c
  · rw [if_pos (by omega), validatePss_eq, er, loop_ok_bind, pssCheck, getSalt, if_pos (by rw [asBytes_i2osp, hil]; omega)]; rfl
  by_cases c2 : sig.length = hashsize c + 1
  · rw [if_pos (by omega), validatePss_eq, er, loop_ok_bind, asBytes_i2osp, pssCheck, getSalt_short c _ _ (by omega) (by omega) (by omega), loop_ok_bind,
      generatePss_ub c _ [] _ (by rw [hil, c2]; rfl) (by omega)]; rfl
  by_cases c3 : sig.length = 2 * hashsize c + 1
  · obtain ⟨mask, -, lm, es⟩ := getSalt_spec c (hashsize c) (i2osp (value r) sig.length) (by omega) (by omega)
    rw [if_pos (by omega), validatePss_eq, er, loop_ok_bind, asBytes_i2osp, pssCheck, es, loop_ok_bind, generatePss_ub c _ _ _ _ (by omega)]
    · rfl
    · rw [List.length_drop, xorOctets_length _ _ (by rw [List.length_take]; omega), List.length_take]
      omega
  · rw [if_neg (by omega), ← validatePss_any okp hodd c 0 message sig hfit (by omega) (by omega) hm, validatePss_eq, validatePss_eq]
    rw [er, loop_ok_bind, loop_ok_bind, asBytes_i2osp, pssCheck, pssCheck, getSalt_short c _ _ (by omega) (by omega) (by omega)]
    obtain ⟨mask, -, lm, es⟩ := getSalt_spec c 0 (i2osp (value r) sig.length) (by omega) (by omega)
    rw [es, List.drop_of_length_le]
    rw [xorOctets_length _ _ (by rw [List.length_take]; omega), List.length_take]
    omega

example : value oddN % 2 = 1 ∧ 1 < value oddN ∧ (List.replicate 65 7#8).length < 2 * digestLength .sha2_256 + 2 ∧
    (List.replicate 65 7#8).length = 2 * digestLength .sha2_256 + 1 := by rw [oddN_value]; decide +kernel

end Verif.Props
