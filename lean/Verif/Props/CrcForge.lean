import Verif.Props.Crc
import Mathlib.Data.Finite.Prod
import Mathlib.Data.Fintype.EquivFin
import Mathlib.Data.List.OfFn

/-! C110: every checksum can be reached. -/

namespace Verif.Props
open Verif.Model Verif.Proof

theorem crc32_length (m : List Byte) : (Model.crc32 m).length = 4 := by
  simp [Model.crc32, crcData]

/-- C110: four bytes anywhere in a message can be chosen such that the message gets any given checksum, in exactly one way. -/
theorem C110 (pre post target : List Byte) (ht : target.length = 4) :
    ∃! a : List Byte, a.length = 4 ∧ Model.crc32 (pre ++ a ++ post) = target := by
  let F : (Fin 4 → Byte) → (Fin 4 → Byte) := fun v i => (Model.crc32 (pre ++ List.ofFn v ++ post)).get (i.cast (crc32_length _).symm)
  have hF : ∀ v, List.ofFn (F v) = Model.crc32 (pre ++ List.ofFn v ++ post) := by
    intro v
    apply List.ext_getElem
    · rw [List.length_ofFn, crc32_length]
    · intro i h1 h2
      rw [List.getElem_ofFn]
      rfl
  have hinj : Function.Injective F := by
    intro v w h
    by_contra hne
    refine C13_four_bytes pre (List.ofFn v) (List.ofFn w) post (by simp) (by simp) (fun e => hne (List.ofFn_injective e)) ?_
    rw [← hF, ← hF, h]
  haveI : Finite Byte := Finite.of_injective (fun b : Byte => b.toFin) (fun a b h => BitVec.eq_of_toFin_eq h)
  obtain ⟨v, hv⟩ := Finite.surjective_of_injective hinj (fun i => target.get (i.cast ht.symm))
  have ht' : List.ofFn (fun i : Fin 4 => target.get (i.cast ht.symm)) = target := by
    apply List.ext_getElem
    · rw [List.length_ofFn, ht]
    · intro i h1 h2
      rw [List.getElem_ofFn]
      rfl
  refine ⟨List.ofFn v, ⟨by simp, by rw [← hF, hv, ht']⟩, fun b hb => ?_⟩
  by_contra hne
  refine C13_four_bytes pre b (List.ofFn v) post (by rw [hb.1, List.length_ofFn]) (by rw [hb.1]) hne ?_
  rw [hb.2, ← hF, hv, ht']

/-- The bytes that give `abc` the checksum `DEADBEEF`. -/
example : ([0xDE#8, 0xAD#8, 0xBE#8, 0xEF#8] : List Byte).length = 4 ∧
    Model.crc32 ([0x61#8, 0x62#8, 0x63#8] ++ [0x01#8, 0x99#8, 0x00#8, 0x33#8] ++ []) = [0xDE#8, 0xAD#8, 0xBE#8, 0xEF#8] := by decide +kernel

/-- C110: hence the checksum does not show deliberate changes: for each message of at least four bytes, each other beginning of the same length can be completed to a message
with the same checksum. -/
theorem C110_second (m p : List Byte) (h : p.length + 4 = m.length) : ∃ a : List Byte, (p ++ a).length = m.length ∧ Model.crc32 (p ++ a) = Model.crc32 m := by
  obtain ⟨a, ⟨h1, h2⟩, -⟩ := C110 p [] (Model.crc32 m) (crc32_length m)
  exact ⟨a, by rw [List.length_append, h1, h], by rw [← h2, List.append_nil]⟩

example : ([0x62#8] : List Byte).length + 4 = ([0x61#8, 0x31#8, 0x32#8, 0x33#8, 0x34#8] : List Byte).length := rfl

end Verif.Props
