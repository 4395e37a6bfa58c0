import Verif.Model.LeakGcm
import Verif.Proof.LeakSame

/-! The functions of `Model.LeakGcm` compute what those of `Model.Gcm` compute, and which runs have the same events. -/

namespace Verif.Proof

open Verif.Model

theorem res_ofOut {α : Type} (x : Out α) : (Leak.ofOut x).res = x := rfl
theorem res_loadu (l : List Byte) (off : Nat) : (loaduL l off).res = loadu l off := rfl
theorem res_storeAt (l : List Byte) (off : Nat) (v : M128) : (storeAtL l off v).res = storeAt l off v := rfl
theorem res_roundKeys (n : Nat) : (roundKeys n).res = .ok () := rfl

theorem res_aesSchedule128 (junk key : List Byte) : (aesSchedule128L junk key).res = aesSchedule128 junk key := by
  rw [aesSchedule128L, res_bind, res_emit, ok_bind, res_bind, res_roundKeys, ok_bind, res_ofOut]

theorem res_aesSchedule256 (key : List Byte) : (aesSchedule256L key).res = aesSchedule256 key := by
  rw [aesSchedule256L, aesSchedule256, res_bind, res_loadu]
  refine congrArg _ (funext fun a => ?_)
  rw [res_bind, res_loadu]
  refine congrArg _ (funext fun b => ?_)
  rw [res_bind, res_roundKeys, ok_bind]; rfl

theorem res_aesEncrypt (bits : Nat) (ks : List M128) (b : M128) : (aesEncryptL bits ks b).res = aesEncrypt bits ks b := by
  rw [aesEncryptL, aesEncrypt, res_bind, res_rd]
  refine congrArg _ (funext fun k => ?_)
  rw [res_bind, res_loop]
  simp only [res_bind, res_rd, res_pure]
  rfl

theorem aes128_plain (junk : List Byte) : (aesCipher128L junk).plain = aesCipher128 junk := by
  rw [CipherL.plain, aesCipher128]
  congr 1
  exact funext fun s => funext (res_aesEncrypt 128 s)

theorem aes256_plain : aesCipher256L.plain = aesCipher256 := by
  rw [CipherL.plain, aesCipher256]
  congr 1
  · exact funext res_aesSchedule256
  · exact funext fun s => funext (res_aesEncrypt 256 s)

theorem res_ctrInc (ctr : List Byte) : (ctrIncL ctr).res = .ok (ctrInc ctr) := by
  rw [ctrIncL, ctrInc]
  simp only [res_bind, res_emit, ok_bind]
  split
  · rfl
  · simp only [res_bind, res_emit, ok_bind]
    split
    · rfl
    · simp only [res_bind, res_emit, ok_bind]
      split
      · rfl
      · rfl

theorem res_hashData (h c : M128) (data : List Byte) : (gcmHashDataL h c data).res = gcmHashData h c data := by
  rw [gcmHashDataL, gcmHashData]
  simp only [res_bind, res_loop, res_loadu, res_pure, res_emit, ok_bind]
  refine congrArg _ (funext fun c => ?_)
  split
  · simp only [res_bind, res_loadu, res_pure, res_emit, ok_bind]; rfl
  · rfl

theorem res_ghash (h : M128) (c a : List Byte) : (gcmGhashL h c a).res = gcmGhash h c a := by
  rw [gcmGhashL, gcmGhash]
  simp only [res_bind, res_hashData, res_loadu, res_pure]
  rfl

theorem res_tag (h z : M128) (c a : List Byte) : (gcmTagL h z c a).res = gcmTag h z c a := by
  rw [gcmTagL, gcmTag]
  simp only [res_bind, res_ghash, res_loadu, res_pure]
  rfl

variable {S : Type}

theorem res_gcmNew (C : CipherL S) (z0 : M128) (key iv : List Byte) : (gcmNewL C z0 key iv).res = gcmNew C.plain z0 key iv := by
  rw [gcmNewL, gcmNew, res_bind]
  refine congrArg _ (funext fun s => ?_)
  rw [res_bind]
  refine congrArg _ (funext fun e => ?_)
  simp only [res_bind, res_emit, ok_bind]
  split
  · rw [res_bind, res_ghash]; rfl
  · rfl

theorem res_ctrStart (iv : List Byte) (counter : U64) : (ctrStartL iv counter).res = ctrStart iv counter := by
  rw [ctrStartL, res_bind, res_emit, ok_bind, res_bind, res_emit, ok_bind, res_ofOut]

theorem res_encLog (C : CipherL S) (s : S) (log : List M128) (b : M128) : (encLogL C s log b).res = encLog C.plain s log b := by
  rw [encLogL, encLog, res_bind]; rfl

theorem res_xorInto (dst src : List Byte) (off count : Nat) : (xorIntoL dst src off count).res = xorInto dst src off count := by
  rw [xorIntoL, xorInto, res_loop]
  simp only [res_bind, res_rd, res_wr]

theorem res_decBlock (C : CipherL S) (sched : S) (c : List Byte) (s : List Byte × List Byte × List M128) (n : Nat) :
    (gcmDecBlockL C sched c s n).res = gcmDecBlock C.plain sched c s n := by
  rw [gcmDecBlockL, gcmDecBlock]
  simp only [res_bind, res_ctrInc, res_loadu, res_encLog, res_storeAt, res_xorInto, res_pure, ok_bind]
  rfl

theorem res_equal (a : List Byte) : ∀ (i : Nat) (b : List Byte), (equalL i a b).res = .ok (decide (a = b)) := by
  induction a with
  | nil =>
    intro i b
    cases b with
    | nil => rfl
    | cons y ys => rfl
  | cons x xs ih =>
    intro i b
    cases b with
    | nil => rfl
    | cons y ys =>
      rw [equalL]
      simp only [res_bind, res_emit, ok_bind]
      by_cases h : x = y
      · subst h
        rw [if_pos (beq_self_eq_true x), ih]
        refine congrArg Except.ok (decide_eq_decide.mpr ?_)
        rw [List.cons_inj_right]
      · rw [if_neg (by simpa using h), res_pure]
        refine congrArg Except.ok (decide_eq_false fun e => h (List.cons.inj e).1).symm

theorem res_decrypt (C : CipherL S) (g : Gcm S) (c a tag : List Byte) : (gcmDecryptL C g c a tag).res = gcmDecrypt C.plain g c a tag := by
  rw [gcmDecryptL, gcmDecMainL, gcmDecrypt]
  simp only [res_bind, res_emit, ok_bind]
  by_cases hv : g.iv.length < 12
  · rw [if_pos hv, if_pos hv]; rfl
  rw [if_neg hv, if_neg hv]
  simp only [res_bind, res_ctrStart, res_loadu, res_encLog, res_loop, res_decBlock, res_tag, res_pure, bind_assoc, pure_bind]
  refine congrArg _ (funext fun ctr => congrArg _ (funext fun b => congrArg _ (funext fun e => congrArg _ (funext fun s => congrArg _ (funext fun t => ?_)))))
  simp only [ok_bind, res_bind, res_emit, res_pure]
  rw [if_pos (by omega), res_equal, decide_eq_true (by omega : g.iv.length ≥ 8)]
  rfl

theorem res_encBlock (C : CipherL S) (sched : S) (p : List Byte) (s : List Byte × List Byte × List M128) (n : Nat) :
    (gcmEncBlockL C sched p s n).res = gcmEncBlock C.plain sched p s n := by
  rw [gcmEncBlockL, gcmEncBlock]
  simp only [res_bind, res_ctrInc, res_loadu, res_encLog, res_storeAt, res_pure, ok_bind]
  rfl

theorem res_encLast (C : CipherL S) (sched : S) (p : List Byte) (full : Nat) (s : List Byte × List Byte × List M128) (n : Nat) :
    (gcmEncLastL C sched p full s n).res = gcmEncLast C.plain sched p full s n := by
  rw [gcmEncLastL, gcmEncLast]
  simp only [res_bind, res_ctrInc, res_loadu, res_encLog, res_storeAt, res_xorInto, res_emit, res_pure, ok_bind]
  rfl

theorem res_encrypt (C : CipherL S) (g : Gcm S) (p a : List Byte) : (gcmEncryptL C g p a).res = gcmEncrypt C.plain g p a := by
  rw [gcmEncryptL, gcmEncrypt]
  simp only [res_bind, res_emit, ok_bind]
  by_cases hv : g.iv.length < 12
  · rw [if_pos hv, if_pos hv]; rfl
  rw [if_neg hv, if_neg hv]
  simp only [res_bind, res_ctrStart, res_loadu, res_encLog, res_loop, res_encBlock, res_encLast, res_tag, res_pure, res_emit, ok_bind, pure_bind]
  rfl

end Verif.Proof
