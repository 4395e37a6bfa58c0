import Verif.Props.HkdfLimits

/-! C87: where the key schedule of the library is not the standard one. -/

namespace Verif.Props

open Verif.Model Verif.Proof Verif.Proof.Hk

/-- One output block of HKDF-Expand-Label. -/
theorem expandLabel_one (mac : List Byte → List Byte → List Byte) (hLen : Nat) (h0 : 0 < hLen) (prk label context info : List Byte)
    (h : Spec.hkdfLabel hLen label context = some info) :
    Spec.expandLabel mac hLen prk label context hLen = some ((mac prk (info ++ [1#8])).take hLen) := by
  unfold Spec.expandLabel Spec.hkdfExpand
  rw [h, Option.bind_eq_bind, Option.bind_some, if_pos (by omega)]
  have : (hLen + hLen - 1) / hLen = 1 := Nat.div_eq_of_lt_le (by omega) (by omega)
  rw [this]
  simp [Spec.hkdfT]

/-! The values, hash by hash. -/

def scheduleEmpty : List Byte := Spec.beBytes 48 0x38b060a751ac96384cd9327eb1b1e36a21fdb71114be07434c0cc7bf63f6e1da274edebfe76f65fbd51ad2f14898b95b
def scheduleInfo : List Byte := hkdfLabel (ascii "derived") scheduleEmpty 48 ++ [1#8]
def spec_a : List Byte := Spec.beBytes 48 0xe9114a22045cde200e85b556e5f8470ef3ae105cdf3250730c9c30d4ada51d390fa3401341b5ef7931b7d51cae7babca
def spec_b : List Byte := Spec.beBytes 48 0x7ee8206f5570023e6dc7519eb1073bc4e791ad37b5c382aa10ba18e2357e716971f9362f2c2fe2a76bfd78dfec4ea9b5
def spec_c : List Byte := Spec.beBytes 48 0xe005510519e8f67e6e23f2720b7c4ac370be56dddf5a4c38c844d9b7355e19493c2e34b6c1fe6f9a4e406de0e7eef42f
def spec_d : List Byte := Spec.beBytes 48 0x1591dac5cbbf0330a4a84de9c753330e92d01f0a88214b4464972fd668049e93e52f2b16fad922fdc0584478428f282b
def spec_e : List Byte := Spec.beBytes 48 0xb4704f809c3fc65967ca27062c2feada2a758c1e77c38271eb9cf3389cc59af9749639b828f454a3bedd50973a7d4c1c
def spec_f : List Byte := Spec.beBytes 48 0x82bcac31431ec82f796a9fac2007032839dcee101a08c3ad46d70b90c133e80082e3eea9686e9454f5c10251226da26a
def lib_a : List Byte := Spec.beBytes 48 0x89e0306dd76aa86de9ce2fe796fed75cdaa4b334d2a89828a4ba2562d38d7d661e4591083098cdb2b200d1ea5ff16ec3
def lib_b : List Byte := Spec.beBytes 48 0xc26677a8d8355c9b724a87e23e3d81b5dfc36f4704c99d6ea096ab3027ea19a077b5e1c3c79a6fa4f549b55322e0c2d4
def lib_c : List Byte := Spec.beBytes 48 0x2b75e9003785fccf790c50fa98d746868494c8c9a58292974b97ccf311ea5e923720c4148a072a72fd4f66a7016c0ccc
def lib_d : List Byte := Spec.beBytes 48 0x7ef4316847f66c8e5bc05eb0469d0d7f95e0d2def271b590ee6b8740c99e7b3dc742a78df216a72183f398f4be5f8923
def lib_e : List Byte := Spec.beBytes 48 0x084a8adada18a585fdc34a936b759059ca33e4d82f285b8dacf9aa468a1148f6437508f2d80532a10ad425c54fa7791c
def lib_f : List Byte := Spec.beBytes 48 0x62a89c042a086f4049c622d1f3ad74f74522417c8a33b3fb14d5aa57cbbc4ea190c6a940a9e967161835915897ce5fad

theorem empty_value : hdata .sha2_384 (hnew0 .sha2_384) = scheduleEmpty := by
  rw [digest_empty, ← hashOf_eq .sha2_384 [] (by decide)]
  exact Fast.run384_sound (n := 1) (by decide +kernel)
theorem spec_a_value : hashOf .sha2_384 (padKey 128 0x36#8 (List.replicate 48 0#8) ++ List.replicate 48 0#8) = spec_a := Fast.run384_sound (n := 2) (by decide +kernel)
theorem spec_b_value : hashOf .sha2_384 (padKey 128 0x5C#8 (List.replicate 48 0#8) ++ spec_a) = spec_b := Fast.run384_sound (n := 2) (by decide +kernel)
theorem spec_c_value : hashOf .sha2_384 (padKey 128 0x36#8 spec_b ++ scheduleInfo) = spec_c := Fast.run384_sound (n := 2) (by decide +kernel)
theorem spec_d_value : hashOf .sha2_384 (padKey 128 0x5C#8 spec_b ++ spec_c) = spec_d := Fast.run384_sound (n := 2) (by decide +kernel)
theorem spec_e_value : hashOf .sha2_384 (padKey 128 0x36#8 spec_d ++ []) = spec_e := Fast.run384_sound (n := 2) (by decide +kernel)
theorem spec_f_value : hashOf .sha2_384 (padKey 128 0x5C#8 spec_d ++ spec_e) = spec_f := Fast.run384_sound (n := 2) (by decide +kernel)
theorem lib_a_value : hashOf .sha2_384 (padKey 96 0x36#8 (List.replicate 48 0#8) ++ List.replicate 48 0#8) = lib_a := Fast.run384_sound (n := 2) (by decide +kernel)
theorem lib_b_value : hashOf .sha2_384 (padKey 96 0x5C#8 (List.replicate 48 0#8) ++ lib_a) = lib_b := Fast.run384_sound (n := 2) (by decide +kernel)
theorem lib_c_value : hashOf .sha2_384 (padKey 96 0x36#8 lib_b ++ scheduleInfo) = lib_c := Fast.run384_sound (n := 2) (by decide +kernel)
theorem lib_d_value : hashOf .sha2_384 (padKey 96 0x5C#8 lib_b ++ lib_c) = lib_d := Fast.run384_sound (n := 2) (by decide +kernel)
theorem lib_e_value : hashOf .sha2_384 (padKey 96 0x36#8 lib_d ++ []) = lib_e := Fast.run384_sound (n := 1) (by decide +kernel)
theorem lib_f_value : hashOf .sha2_384 (padKey 96 0x5C#8 lib_d ++ lib_e) = lib_f := Fast.run384_sound (n := 2) (by decide +kernel)

/-- What the library computes. -/
theorem library_secret : hkdfHandshakeSecret .sha2_384 [] = .ok lib_f := by
  have hE : hkdfExtract .sha2_384 (resizeTo [] (hashsize .sha2_384)) (resizeTo [] (hashsize .sha2_384)) = lib_b :=
    lib_value (key := List.replicate 48 0#8) (by rw [List.length_replicate]; omega) lib_a_value lib_b_value
  have hD : hmac .sha2_384 scheduleInfo lib_b = lib_d := lib_value (by decide +kernel) lib_c_value lib_d_value
  have hX : hkdfExpandLabel .sha2_384 lib_b (ascii "derived") scheduleEmpty (hashsize .sha2_384) = .ok lib_d := by
    have l : lib_d.length = 48 := by decide +kernel
    have one : hkdfExpandLoop .sha2_384 lib_b (hkdfLabel (ascii "derived") scheduleEmpty 48) 48 (47 + 1) [] [] 1 = .ok lib_d := by
      rw [hkdfExpandLoop, if_pos (by decide)]
      show hkdfExpandLoop .sha2_384 lib_b _ 48 (46 + 1) ([] ++ hmac .sha2_384 scheduleInfo lib_b) (hmac .sha2_384 scheduleInfo lib_b) 2 = _
      rw [hD, List.nil_append, hkdfExpandLoop, if_neg (by omega)]
    unfold hkdfExpandLabel hkdfExpand
    show (hkdfExpandLoop .sha2_384 lib_b (hkdfLabel (ascii "derived") scheduleEmpty 48) 48 (47 + 1) [] [] 1 >>= fun b => pure (resizeTo b 48)) = _
    rw [one]
    show Except.ok (lib_d.take 48 ++ List.replicate (48 - lib_d.length) 0#8) = _
    rw [l, List.take_of_length_le (by omega)]
    simp
  show (hkdfExpandLabel .sha2_384 (hkdfExtract .sha2_384 (resizeTo [] (hashsize .sha2_384)) (resizeTo [] (hashsize .sha2_384))) (ascii "derived")
    (hdata .sha2_384 (hnew0 .sha2_384)) (hashsize .sha2_384) >>= fun d => pure (hkdfExtract .sha2_384 d [])) = _
  rw [hE, empty_value]
  show (hkdfExpandLabel .sha2_384 lib_b (ascii "derived") scheduleEmpty (hashsize .sha2_384) >>= fun d => pure (hkdfExtract .sha2_384 d [])) = _
  rw [hX]
  show Except.ok (hmac .sha2_384 [] lib_d) = _
  rw [lib_value (by decide +kernel) lib_e_value lib_f_value]

/-- SHA-384: the handshake secret of the empty shared secret is not the one of the RFCs. -/
theorem C87_false_sha384 : ∃ hs, Spec.handshakeSecret (Spec.hmac .sha2_384) 48 (Spec.digest .sha2_384 []) [] = some hs ∧
    hkdfHandshakeSecret .sha2_384 [] ≠ .ok hs := by
  have hd : Spec.digest .sha2_384 [] = hdata .sha2_384 (hnew0 .sha2_384) := (digest_empty .sha2_384).symm
  have he : (hdata .sha2_384 (hnew0 .sha2_384)).length = 48 := hdata_length _ _
  have hl := C67_encoding (ascii "derived") (hdata .sha2_384 (hnew0 .sha2_384)) 48 (by decide) (by decide) (by omega) (by decide)
  have hil : (hkdfLabel (ascii "derived") (hdata .sha2_384 (hnew0 .sha2_384)) 48).length ≤ 514 := (label_some hl).2.2.2.2.2
  have hE : Spec.earlySecret (Spec.hmac .sha2_384) 48 = Spec.rfc2104 (hashOf .sha2_384) 128 (List.replicate 48 0#8) (List.replicate 48 0#8) :=
    spec_hmac_eval .sha2_384 _ _ (by simp [Spec.zeros]) (by simp [Spec.zeros])
  have hrl : ∀ k t, (Spec.rfc2104 (hashOf .sha2_384) 128 k t).length = 48 := fun k t => hashOf_length _ _
  have hi : hkdfLabel (ascii "derived") (hdata .sha2_384 (hnew0 .sha2_384)) 48 ++ [1#8] = scheduleInfo := by rw [empty_value]; rfl
  refine ⟨spec_f, ?_, ?_⟩
  · unfold Spec.handshakeSecret Spec.deriveSecret
    rw [hd, expandLabel_one _ 48 (by decide) _ _ _ _ hl, hE, spec_hmac_eval .sha2_384 _ _ (by rw [hrl]; decide) (by simp; omega), hi,
      show Spec.blockLength .sha2_384 = 128 from rfl, rfc_value (by rw [List.length_replicate]; omega) spec_a_value spec_b_value, rfc_value (by decide +kernel) spec_c_value spec_d_value]
    show some (Spec.hmac .sha2_384 (spec_d.take 48) []) = _
    rw [spec_hmac_eval .sha2_384 _ _ (by rw [List.length_take]; omega) (by simp), show Spec.blockLength .sha2_384 = 128 from rfl,
      show spec_d.take 48 = spec_d by decide +kernel, rfc_value (by decide +kernel) spec_e_value spec_f_value]
  · rw [library_secret]
    exact fun h => absurd (Except.ok.inj h) (by decide +kernel)

theorem C87_false : ¬ C87_claim := by
  intro h
  obtain ⟨hs, h1, h2⟩ := h .sha2_384 (Or.inr rfl) [] (by simp)
  obtain ⟨hs', h1', h2'⟩ := C87_false_sha384
  have e : some hs = some hs' := h1.symm.trans h1'
  exact h2' (Option.some.inj e ▸ h2)

end Verif.Props
