import Verif.Proof.Cert
import Verif.Props.Rsa

/-! `x509certificate::verify` on DER encoded certificates. -/

namespace Verif.Proof
open Verif.Model Verif.Spec

theorem verifySignature_der (tbs oid par sig : List Byte) (tag u : Byte) (pubkey : Option RsaPub)
    (hl : (tlv 0x30#8 (tlv 0x30#8 tbs ++ (tlv 0x30#8 (tlv tag oid ++ par) ++ tlv 0x03#8 (u :: sig)))).length < 2 ^ 64) :
    verifySignature (tlv 0x30#8 (tlv 0x30#8 tbs ++ (tlv 0x30#8 (tlv tag oid ++ par) ++ tlv 0x03#8 (u :: sig)))) pubkey =
      match pubkey with
      | none => .error .ub
      | some k => validateSignature k (schemeOf oid) tbs sig.reverse := by
  have L0 := le_tlv 0x30#8 (tlv 0x30#8 tbs ++ (tlv 0x30#8 (tlv tag oid ++ par) ++ tlv 0x03#8 (u :: sig)))
  simp only [List.length_append] at L0
  have L1 := le_tlv 0x30#8 tbs
  have L2 := le_tlv 0x30#8 (tlv tag oid ++ par)
  have L3 := le_tlv 0x03#8 (u :: sig)
  have L4 := le_tlv tag oid
  have L5 : (tlv tag oid ++ par).length = (tlv tag oid).length + par.length := List.length_append
  have A0 : At (viewOf (spanOf (tlv 0x30#8 (tlv 0x30#8 tbs ++ (tlv 0x30#8 (tlv tag oid ++ par) ++ tlv 0x03#8 (u :: sig))))))
      (tlv 0x30#8 (tlv 0x30#8 tbs ++ (tlv 0x30#8 (tlv tag oid ++ par) ++ tlv 0x03#8 (u :: sig))) ++ []) [] := by
    rw [List.append_nil]; exact at_whole _
  obtain ⟨w0, e0, _⟩ := read_tlv A0 (by simp only [List.length_append]; omega)
  obtain ⟨w1, e1, A1⟩ := read_tlv (at_view (tlv 0x30#8 tbs ++ (tlv 0x30#8 (tlv tag oid ++ par) ++ tlv 0x03#8 (u :: sig))) ([] ++ [])) (by omega)
  obtain ⟨w2, e2, A2⟩ := read_tlv A1 (by omega)
  have A2' : At w2 (tlv 0x03#8 (u :: sig) ++ []) ([] ++ []) := by rw [List.append_nil]; exact A2
  obtain ⟨w3, e3, _⟩ := read_tlv A2' (by omega)
  obtain ⟨w4, e4, _⟩ := read_tlv (at_view (tlv tag oid ++ par) (tlv 0x03#8 (u :: sig) ++ ([] ++ []))) (by omega)
  rw [verifySignature, e0, ok_bind, if_neg (by simp), e1, ok_bind, if_neg (by simp), e2, ok_bind, e3, ok_bind, if_neg (by simp), if_neg (by simp), e4, ok_bind]
  dsimp only
  rw [span_bytes, span_bytes, span_bytes, signatureBytes, ok_bind]
  cases pubkey <;> rfl

/-- The three algorithms of RFC 8017 with their object identifiers (A.2.4). -/
theorem schemeOf_eq (oid : List Byte) : schemeOf oid =
    if oid = oidContent [1, 2, 840, 113549, 1, 1, 11] then 0x0401 else if oid = oidContent [1, 2, 840, 113549, 1, 1, 12] then 0x0501
    else if oid = oidContent [1, 2, 840, 113549, 1, 1, 13] then 0x0601 else 0 := by
  have h1 : oidContent [1, 2, 840, 113549, 1, 1, 11] = [0x2a#8, 0x86#8, 0x48#8, 0x86#8, 0xf7#8, 0x0d#8, 0x01#8, 0x01#8, 0x0b#8] := by decide +kernel
  have h2 : oidContent [1, 2, 840, 113549, 1, 1, 12] = [0x2a#8, 0x86#8, 0x48#8, 0x86#8, 0xf7#8, 0x0d#8, 0x01#8, 0x01#8, 0x0c#8] := by decide +kernel
  have h3 : oidContent [1, 2, 840, 113549, 1, 1, 13] = [0x2a#8, 0x86#8, 0x48#8, 0x86#8, 0xf7#8, 0x0d#8, 0x01#8, 0x01#8, 0x0d#8] := by decide +kernel
  rw [h1, h2, h3]; rfl

end Verif.Proof
