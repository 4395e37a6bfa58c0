import Verif.Props.PrivateKey
import Verif.Props.Cert
import Verif.Props.Pem

/-! C96: a key file and a certificate for the same key pair work together. -/

namespace Verif.Props
open Verif.Model Verif.Spec Verif.Proof

/-- C96: what is signed (RSASSA-PSS, SHA-256) with a private key file is accepted under the certificate of the public key; both may be DER or PEM. -/
theorem C96_key_pair (f : RsaKeyFile) (t : Tbs) (algorithm signature : List Byte) (k scheme : Nat) (message : List Byte) (rs : RandState)
    (hn : t.modulus = f.n) (he : t.exponent = f.e) (hv : ValidPair f.n f.e f.d) (hlo : 2 ^ (8 * k - 1) ≤ f.n) (hhi : f.n < 2 ^ (8 * k)) (hk : 130 ≤ k) (hk' : k ≤ 512)
    (hd : f.d < 2 ^ 4096) (h17 : 17 ≤ f.e) (hord : Ordinary t) (hser : t.serial < 2 ^ 128) (hu : t.issuerUniqueID = none ∧ t.subjectUniqueID = none)
    (hl1 : f.der.length < 2 ^ 64) (hl2 : (certDer t algorithm signature).length < 2 ^ 64) (hm : message.length < 2 ^ 61) (hs : scheme = 0x0804 ∨ scheme = 0x0809)
    (keyText certText : List Byte) (keyFormat certFormat : DataFormat)
    (hkey : keyFormat = .Der ∧ keyText = f.der ∨ keyFormat = .Pem ∧ ∃ intro body rest, 0x2d#8 ∉ intro ∧ Base64Of f.der body ∧ startsWhite body ∧
      keyText = intro ++ (keyBeginMark ++ (body ++ (keyEndMark ++ rest))) ∧ keyText.length < 2 ^ 64)
    (hcert : certFormat = .Der ∧ certText = certDer t algorithm signature ∨ certFormat = .Pem ∧ ∃ intro block rest, 0x2d#8 ∉ intro ∧ PemBlock.Valid block ∧
      block.der = certDer t algorithm signature ∧ certText = intro ++ (block.text ++ rest) ∧ certText.length < 2 ^ 64) :
    ∃ key cert kp sig rs', parsePrivateKey keyText keyFormat = .ok (some key) ∧ parseCertificate certText certFormat = .ok cert ∧ cert.pubkey = some kp ∧
      rsaSign key scheme message rs = .ok (sig, rs') ∧ sig.length = k ∧ validateSignature kp scheme message sig = .ok true := by
  have hodd : f.n % 2 = 1 := (validPair_pos hv).2.2.2
  have h1 : 1 < f.n := (validPair_pos hv).2.2.1
  have hlt : f.n < 2 ^ 4096 := lt_of_lt_of_le hhi (Nat.pow_le_pow_right (by decide) (by omega))
  obtain ⟨key, ek, ln, ld, vn, vd, kk⟩ := C95_partial f hl1 hodd h1 hlt hd
  obtain ⟨cert, ec, carries⟩ := C80_partial t algorithm signature hord hu (by omega) hser hl2
  obtain ⟨kp, hkp, lpn, lpe, vpn, vpe, pk⟩ := carries.key
  have eqn : kp.n = key.n := value_inj (by omega) (by rw [vpn, vn, hn])
  have hv' : ValidPair (value key.n) (value kp.e) (value key.d) := by rw [vn, vpe, vd, he]; exact hv
  obtain ⟨sig, rs', es, ls, ev⟩ := C38_sha256 key.n kp.e key.d k scheme message rs ln lpe ld hv' (by rw [vn]; exact hlo) (by rw [vn]; exact hhi) hk hm hs
  rw [kk, ok_bind] at es
  rw [← eqn, pk, ok_bind] at ev
  refine ⟨key, cert, kp, sig, rs', ?_, ?_, hkp, es, ls, ev⟩
  · rcases hkey with ⟨rfl, rfl⟩ | ⟨rfl, intro, body, rest, h1, h2, h3, rfl, h5⟩
    · exact ek
    · rw [C95_pem_partial f intro body rest h1 h2 h3 h5]; exact ek
  · rcases hcert with ⟨rfl, rfl⟩ | ⟨rfl, intro, block, rest, h1, h2, h3, rfl, h5⟩
    · exact ec
    · rw [parse_block intro block rest h1 h2 h5, h3]; exact ec

/-- A key pair of 1128 bits with exponent 65537. -/
def pairFile : RsaKeyFile where
  n := (2 ^ 521 - 1) * (2 ^ 607 - 1)
  e := 65537
  d := 605309440029444797632079365922351903778944636504290628815687804447518401725202045830587428993072200378798732205389608178468869002370652053408838463061590768976059755211666722868590174546762165023955171158423681809701058604934000382033836393559131564093520170601086332978178762009136501271874027235396379522707933355224417396404416034089473
  p := 2 ^ 521 - 1
  q := 2 ^ 607 - 1
  dp := 5155328233496318390256865764810548697290840245466729669258087920880340553538954146776874404297340568416582885358721232128614872261196790492751513654940106623
  dq := 354097398143799503729885223929848166154761165444397497420237625864046757365157944211048538214632924141250172939150130801875623608354396519588640720696243871112957198000213627812293289
  qinv := 221445085810664829515545184205031064690430961084969366776337966263993579547131070136655493104453674321627155849131184341222111266700875443261518028401084481

def pairTbs : Tbs := { demoTbs 1 65537 none with modulus := (2 ^ 521 - 1) * (2 ^ 607 - 1) }

theorem pair_valid : ValidPair pairFile.n pairFile.e pairFile.d :=
  ⟨2 ^ 521 - 1, 2 ^ 607 - 1, prime_521, prime_607, by decide +kernel, by decide +kernel, by decide +kernel, rfl, by
    rw [Nat.ModEq]
    decide +kernel⟩

/-- the hypotheses of C96 for this pair and a message -/
example : ∃ key cert kp sig rs', parsePrivateKey pairFile.der .Der = .ok (some key) ∧ parseCertificate (certDer pairTbs [] []) .Der = .ok cert ∧ cert.pubkey = some kp ∧
    rsaSign key 0x0804 [1#8, 2#8, 3#8] randInit = .ok (sig, rs') ∧ sig.length = 141 ∧ validateSignature kp 0x0804 [1#8, 2#8, 3#8] sig = .ok true :=
  C96_key_pair pairFile pairTbs [] [] 141 0x0804 [1#8, 2#8, 3#8] randInit rfl rfl pair_valid (by decide +kernel) (by decide +kernel) (by decide) (by decide) (by decide +kernel)
    (by decide) ⟨by decide, demoName_plain, demoName_plain, demoStart, demoStop, by unfold GoodKey; decide +kernel⟩ (by decide) ⟨rfl, rfl⟩ (by decide +kernel) (by decide +kernel) (by decide)
    (Or.inl rfl) _ _ _ _ (Or.inl ⟨rfl, rfl⟩) (Or.inl ⟨rfl, rfl⟩)

end Verif.Props
