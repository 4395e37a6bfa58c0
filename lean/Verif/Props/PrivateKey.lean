import Verif.Spec.PrivateKey
import Verif.Proof.Pem
import Verif.Proof.Cert
import Verif.Props.Rsa

/-! C95, C96: private key files. -/

namespace Verif.Props
open Verif.Model Verif.Spec Verif.Proof

/-- What is read from the DER form, for all numbers. -/
theorem parseKeyDer (k : RsaKeyFile) (hl : k.der.length < 2 ^ 64) (hodd : k.n % 2 = 1) (h1 : 1 < k.n % 2 ^ 4096) :
    ∃ key, parsePrivateKeyDer k.der = .ok (some key) ∧ key.n.length = 128 ∧ key.d.length = 128 ∧ value key.n = k.n % 2 ^ 4096 ∧ value key.d = k.d % 2 ^ 4096 ∧
      rsaPrivNew 4096 key.n key.d = .ok key := by
  have hroot : At (viewOf (spanOf k.der)) (k.der ++ []) [] := by
    have := at_view k.der []
    rw [List.append_nil] at this ⊢
    exact this
  rw [RsaKeyFile.der] at hl hroot ⊢
  generalize hr : integerDer k.p ++ (integerDer k.q ++ (integerDer k.dp ++ (integerDer k.dq ++ integerDer k.qinv))) = rest at *
  generalize hc : integerDer 0 ++ (integerDer k.n ++ (integerDer k.e ++ (integerDer k.d ++ rest))) = c at *
  have l1 := le_tlv 0x30#8 c
  have lc : c.length = (integerDer 0).length + ((integerDer k.n).length + ((integerDer k.e).length + ((integerDer k.d).length + rest.length))) := by
    rw [← hc]; simp only [List.length_append]
  have l2 := fun n => le_tlv 0x02#8 (integerContent n)
  have ln := l2 k.n
  have le := l2 k.e
  have ld := l2 k.d
  have l0 := l2 0
  rw [← integerDer] at ln le ld l0
  obtain ⟨v', e1, _⟩ := read_tlv hroot (by omega)
  have hv := at_view c ([] ++ [])
  conv at hv => rw [← hc]
  obtain ⟨x0, v0, e0, a0, _, _⟩ := parseBignum_spec 1 hv (by omega)
  obtain ⟨x1, w1, e2, a1, lx1, vx1⟩ := parseBignum_spec 128 a0 (by omega)
  obtain ⟨x2, w2, e3, a2, _, _⟩ := parseBignum_spec 128 a1 (by omega)
  obtain ⟨x3, w3, e4, _, lx3, vx3⟩ := parseBignum_spec 128 a2 (by omega)
  rw [show 32 * 128 = 4096 from rfl] at e2 e3 e4 vx1 vx3
  rw [show 32 * 1 = 32 from rfl, hc] at e0
  have hodd' : value x1 % 2 = 1 := by
    rw [vx1, Nat.mod_mod_of_dvd _ (show 2 ∣ 2 ^ 4096 from Dvd.intro_left (2 ^ 4095) (by rw [← pow_succ]))]; exact hodd
  obtain ⟨key, ek, kn, kd, _⟩ := rsaPrivNew_spec 128 (by decide) x1 x3 lx1 lx3 hodd' (by rw [vx1]; exact h1)
  rw [show 32 * 128 = 4096 from rfl] at ek
  refine ⟨key, ?_, by rw [kn, lx1], by rw [kd, lx3], by rw [kn, vx1], by rw [kd, vx3], by rw [kn, kd]; exact ek⟩
  rw [parsePrivateKeyDer, e1, ok_bind, if_neg (by simp)]
  dsimp only
  rw [e0, ok_bind, e2, ok_bind, e3, ok_bind, e4, ok_bind, ek, ok_bind]
  rfl

theorem key_marks : beginPrivateKey = keyBeginMark ∧ endPrivateKey = keyEndMark ∧ keyBeginMark.length = 31 ∧ keyEndMark.length = 29 := ⟨rfl, rfl, rfl, rfl⟩

theorem findGo_keyEnd_in_begin {c : Byte} (hc : c ∈ whitespace) (r : List Byte) (k : Nat) :
    findGo keyEndMark (keyBeginMark ++ c :: r) k = findGo keyEndMark r (k + 32) := by
  simp only [whitespace, List.mem_cons, List.not_mem_nil, or_false] at hc
  rcases hc with rfl | rfl | rfl | rfl <;> rfl

/-- The armour is removed. -/
theorem keyBody_spec (pre body r : List Byte) (hp : 0x2d#8 ∉ pre) (hb : 0x2d#8 ∉ body) (hw : startsWhite body)
    (hl : (pre ++ (keyBeginMark ++ (body ++ (keyEndMark ++ r)))).length < 2 ^ 64) :
    pemBody (pre ++ (keyBeginMark ++ (body ++ (keyEndMark ++ r)))) beginPrivateKey endPrivateKey = .ok (base64d body) := by
  obtain ⟨q1, q2, m1, m2⟩ := key_marks
  have hh : keyBeginMark.head? = some 0x2d#8 := rfl
  have hh' : keyEndMark.head? = some 0x2d#8 := rfl
  have e1 : findFrom (pre ++ (keyBeginMark ++ (body ++ (keyEndMark ++ r)))) keyBeginMark 0 = some pre.length := by
    rw [findFrom_go _ _ _ (Nat.zero_le _), List.drop_zero, findGo_skip hh _ _ _ hp, findGo_here, Nat.zero_add]
  have e2 : findFrom (pre ++ (keyBeginMark ++ (body ++ (keyEndMark ++ r)))) keyEndMark 0 = some (pre.length + 31 + body.length) := by
    rw [findFrom_go _ _ _ (Nat.zero_le _), List.drop_zero, findGo_skip hh' _ _ _ hp]
    obtain ⟨c, hc, t, rfl⟩ := hw
    rw [List.cons_append, findGo_keyEnd_in_begin hc, findGo_skip hh' _ _ _ (fun h => hb (List.mem_cons_of_mem _ h)), findGo_here, List.length_cons]
    congr 1; omega
  simp only [List.length_append, m1, m2] at hl
  rw [pemBody, q1, q2, e1, e2]
  dsimp only [Option.getD_some]
  rw [Nat.mod_eq_of_lt (by omega), szSub_eq (by omega) (by omega), substr, if_neg (by simp only [List.length_append]; omega), ok_bind,
    show pre.length + 31 + body.length - (pre.length + keyBeginMark.length) = body.length by omega, ← List.append_assoc, ← List.length_append, List.drop_left, List.take_left]
  rfl

/-- C95 in full: what is returned for the encoding of a key is that key. -/
def C95_claim : Prop := ∀ k : RsaKeyFile, k.der.length < 2 ^ 64 → k.n % 2 = 1 → 1 < k.n →
  (∀ key, parsePrivateKey k.der .Der = .ok (some key) → value key.n = k.n ∧ value key.d = k.d) ∧
  (∀ intro body rest, 0x2d#8 ∉ intro → Base64Of k.der body → startsWhite body → (intro ++ (keyBeginMark ++ (body ++ (keyEndMark ++ rest)))).length < 2 ^ 64 →
    parsePrivateKey (intro ++ (keyBeginMark ++ (body ++ (keyEndMark ++ rest)))) .Pem = parsePrivateKey k.der .Der)

/-- The PEM form gives what the DER form gives, whatever text stands around it. -/
theorem C95_pem_partial (k : RsaKeyFile) (intro body rest : List Byte) (hi : 0x2d#8 ∉ intro) (hb : Base64Of k.der body) (hw : startsWhite body)
    (hl : (intro ++ (keyBeginMark ++ (body ++ (keyEndMark ++ rest)))).length < 2 ^ 64) :
    parsePrivateKey (intro ++ (keyBeginMark ++ (body ++ (keyEndMark ++ rest)))) .Pem = parsePrivateKey k.der .Der := by
  conv_lhs => rw [parsePrivateKey]
  rw [keyBody_spec intro body rest hi (base64Of_nodash hb) hw hl, ok_bind, base64Of_decode hb]
  rfl

/-- C95, what holds: keys of up to 4096 bits are read. Missing: longer keys, which are cut to their last 4096 bits instead of being refused. -/
theorem C95_partial (k : RsaKeyFile) (hl : k.der.length < 2 ^ 64) (hodd : k.n % 2 = 1) (h1 : 1 < k.n) (hn : k.n < 2 ^ 4096) (hd : k.d < 2 ^ 4096) :
    ∃ key, parsePrivateKey k.der .Der = .ok (some key) ∧ key.n.length = 128 ∧ key.d.length = 128 ∧ value key.n = k.n ∧ value key.d = k.d ∧
      rsaPrivNew 4096 key.n key.d = .ok key := by
  have := parseKeyDer k hl hodd (by rw [Nat.mod_eq_of_lt hn]; exact h1)
  rwa [Nat.mod_eq_of_lt hn, Nat.mod_eq_of_lt hd] at this

/-- A case that meets the hypotheses of `C95_partial`. -/
example := C95_partial ⟨3233, 17, 2753, 61, 53, 53, 49, 38⟩ (by decide +kernel) (by decide) (by decide) (by decide +kernel) (by decide +kernel)

/-- What is returned for longer keys. -/
theorem C95_long_partial (k : RsaKeyFile) (hl : k.der.length < 2 ^ 64) (hodd : k.n % 2 = 1) (h1 : 1 < k.n % 2 ^ 4096) :
    ∃ key, parsePrivateKey k.der .Der = .ok (some key) ∧ value key.n = k.n % 2 ^ 4096 ∧ value key.d = k.d % 2 ^ 4096 := by
  obtain ⟨key, e, _, _, vn, vd, _⟩ := parseKeyDer k hl hodd h1
  exact ⟨key, e, vn, vd⟩

/-- A key of 4097 bits, of which modulus 3 is left. -/
def longKey : RsaKeyFile := ⟨2 ^ 4096 + 3, 17, 17, 3, 5, 1, 1, 1⟩

/-- C95 fails. -/
theorem C95_false : ¬ C95_claim := by
  intro h
  have hl : longKey.der.length < 2 ^ 64 := by decide +kernel
  obtain ⟨key, e, vn, _⟩ := C95_long_partial longKey hl (by decide +kernel) (by decide +kernel)
  have := ((h longKey hl (by decide +kernel) (by decide +kernel)).1 key e).1
  rw [vn] at this
  exact absurd this (by decide +kernel)

/-- a key that is read: n = 3233 = 61 * 53, e = 17, d = 2753 -/
example : (RsaKeyFile.der ⟨3233, 17, 2753, 61, 53, 53, 49, 38⟩).length < 2 ^ 64 ∧ 3233 % 2 = 1 ∧ 1 < 3233 ∧ 3233 < 2 ^ 4096 ∧ 2753 < 2 ^ 4096 := by decide +kernel

end Verif.Props
