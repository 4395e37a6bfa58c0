import Verif.Props.Collision

/-! C143: the secrets of the key schedule determine what they were made from, or there is a hash collision among the strings that were hashed. -/

namespace Verif.Props
open Verif.Model Verif.Proof Verif.Spec

/-- The two strings that HMAC hashes. -/
noncomputable def macStrings (c : HashClass) (text key : List Byte) : List (List Byte) :=
  [padded c 0x36#8 key ++ text, padded c 0x5C#8 key ++ digest c (padded c 0x36#8 key ++ text)]

/-- Among the strings of two computations there is a collision. -/
def CollideIn (c : HashClass) (xs ys : List (List Byte)) : Prop := ∃ x ∈ xs, ∃ y ∈ ys, Collides c x y

theorem CollideIn.left {c : HashClass} {xs ys xs' ys' : List (List Byte)} (h : CollideIn c xs ys) : CollideIn c (xs ++ xs') (ys ++ ys') := by
  obtain ⟨x, hx, y, hy, h⟩ := h
  exact ⟨x, List.mem_append_left _ hx, y, List.mem_append_left _ hy, h⟩

theorem CollideIn.right {c : HashClass} {xs ys xs' ys' : List (List Byte)} (h : CollideIn c xs ys) : CollideIn c (xs' ++ xs) (ys' ++ ys) := by
  obtain ⟨x, hx, y, hy, h⟩ := h
  exact ⟨x, List.mem_append_right _ hx, y, List.mem_append_right _ hy, h⟩

theorem padded_same (c : HashClass) (k k' : List Byte) (hk : k.length = digestLength c) (hk' : k'.length = digestLength c) (h : padded c 0#8 k = padded c 0#8 k') : k = k' := by
  rw [padded, padded] at h
  have hm : ∀ l : List Byte, l.map (· ^^^ 0#8) = l := fun l => by simp
  rw [hm, hm, List.take_of_length_le (by omega), List.take_of_length_le (by omega)] at h
  exact (List.append_inj h (by omega)).1

theorem mac_binding (c : HashClass) (text key text' key' : List Byte) (ht : text.length < 2 ^ 60) (ht' : text'.length < 2 ^ 60) (hk : key.length = digestLength c)
    (hk' : key'.length = digestLength c) (h : Model.hmac c text key = Model.hmac c text' key') :
    (text = text' ∧ key = key') ∨ CollideIn c (macStrings c text key) (macStrings c text' key') := by
  rcases C118_hmac c text key text' key' ht ht' h with ⟨h1, h2⟩ | h | h
  · exact .inl ⟨h1, padded_same c _ _ hk hk' h2⟩
  · exact .inr ⟨_, .head _, _, .head _, h⟩
  · exact .inr ⟨_, .tail _ (.head _), _, .tail _ (.head _), h⟩

/-- A request for one digest is one call of HMAC. -/
theorem expandLabel_hashsize (c : HashClass) (prk label context : List Byte) :
    hkdfExpandLabel c prk label context (hashsize c) = .ok (Model.hmac c (Model.hkdfLabel label context (hashsize c) ++ [1#8]) prk) := by
  have hp := hashsize_pos c
  have hl := Hk.hmac_length c (Model.hkdfLabel label context (hashsize c) ++ [1#8]) prk
  rw [hkdfExpandLabel, Model.hkdfExpand]
  obtain ⟨n, hn⟩ : ∃ n, hashsize c = n + 1 := ⟨hashsize c - 1, by omega⟩
  have e : hkdfExpandLoop c prk (Model.hkdfLabel label context (hashsize c)) (hashsize c) (hashsize c) [] [] 1 =
      .ok (Model.hmac c (Model.hkdfLabel label context (hashsize c) ++ [1#8]) prk) := by
    conv_lhs => arg 5; rw [hn]
    rw [hkdfExpandLoop, if_pos (by simpa using hp)]
    simp only [List.nil_append]
    generalize Model.hmac c (Model.hkdfLabel label context (hashsize c) ++ [BitVec.ofNat 8 1]) prk = m at *
    cases n with
    | zero => rw [hkdfExpandLoop, if_neg (by omega)]
    | succ n => rw [hkdfExpandLoop, if_neg (by omega)]
  rw [e, ok_bind]
  show Except.ok (resizeTo _ _) = _
  rw [resizeTo, List.take_of_length_le (by omega), hl, Nat.sub_self, List.replicate_zero, List.append_nil]

/-- The strings hashed by a request for one digest. -/
noncomputable def labelStrings (c : HashClass) (secret label context : List Byte) : List (List Byte) := macStrings c (Model.hkdfLabel label context (hashsize c) ++ [1#8]) secret

theorem label_binding (c : HashClass) (s s' l l' x x' : List Byte) (hs : s.length = digestLength c) (hs' : s'.length = digestLength c) (hl : l.length ≤ 249)
    (hl' : l'.length ≤ 249) (hx : x.length ≤ 255) (hx' : x'.length ≤ 255) (h : hkdfExpandLabel c s l x (hashsize c) = hkdfExpandLabel c s' l' x' (hashsize c)) :
    (s = s' ∧ l = l' ∧ x = x') ∨ CollideIn c (labelStrings c s l x) (labelStrings c s' l' x') := by
  rw [expandLabel_hashsize, expandLabel_hashsize] at h
  have hh : hashsize c < 2 ^ 16 := by cases c <;> decide
  have h6 : (ascii "tls13 ").length = 6 := by decide
  have len : ∀ l x : List Byte, l.length ≤ 249 → x.length ≤ 255 → (Model.hkdfLabel l x (hashsize c) ++ [1#8]).length < 2 ^ 60 := by
    intro l x h1 h2
    rw [Model.hkdfLabel]
    simp only [List.length_append, List.length_cons, List.length_nil, h6]
    have : (2 : Nat) ^ 60 = 1152921504606846976 := by norm_num
    omega
  rcases mac_binding c _ _ _ _ (len l x hl hx) (len l' x' hl' hx') hs hs' (Except.ok.inj h) with ⟨h1, h2⟩ | h
  · obtain ⟨h3, h4, _⟩ := C67_injective _ _ _ _ _ _ hl hl' hh hh (List.append_inj_left' h1 rfl)
    exact .inl ⟨h2, h3, h4⟩
  · exact .inr h

/-- The label of `get_traffic_secret` (include/caligo/hkdf.h:62). -/
def trafficLabel (client handshake : Bool) : List Byte :=
  if client then (if handshake then ascii "c hs traffic" else ascii "c ap traffic") else (if handshake then ascii "s hs traffic" else ascii "s ap traffic")

theorem trafficLabel_length (a b : Bool) : (trafficLabel a b).length ≤ 249 := by cases a <;> cases b <;> decide

theorem trafficLabel_inj (a b a' b' : Bool) (h : trafficLabel a b = trafficLabel a' b') : a = a' ∧ b = b' := by
  revert h; revert a b a' b'; decide +kernel

/-- C143, traffic secrets: the secret, the transcript hash, the side and the stage are determined. -/
theorem C143_traffic (c : HashClass) (s s' th th' : List Byte) (client client' handshake handshake' : Bool) (hs : s.length = digestLength c)
    (hs' : s'.length = digestLength c) (ht : th.length ≤ 255) (ht' : th'.length ≤ 255) (h : getTrafficSecret c s th client handshake = getTrafficSecret c s' th' client' handshake') :
    (s = s' ∧ th = th' ∧ client = client' ∧ handshake = handshake') ∨
    CollideIn c (labelStrings c s (trafficLabel client handshake) th) (labelStrings c s' (trafficLabel client' handshake') th') := by
  rcases label_binding c s s' (trafficLabel client handshake) (trafficLabel client' handshake') th th' hs hs' (trafficLabel_length _ _) (trafficLabel_length _ _) ht ht' h with ⟨h1, h2, h3⟩ | h
  · obtain ⟨h4, h5⟩ := trafficLabel_inj _ _ _ _ h2
    exact .inl ⟨h1, h3, h4, h5⟩
  · exact .inr h

/-- A case that meets the hypotheses of `C143_traffic`. -/
example := C143_traffic .sha2_256 (List.replicate 32 1#8) (List.replicate 32 1#8) [1#8] [1#8] true true false false (by decide) (by decide) (by decide) (by decide) rfl

/-- The strings hashed in `get_finished_key`. -/
noncomputable def finishedStrings (c : HashClass) (s th : List Byte) (client : Bool) : List (List Byte) :=
  labelStrings c s (trafficLabel client true) th ++
    labelStrings c (Model.hmac c (Model.hkdfLabel (trafficLabel client true) th (hashsize c) ++ [1#8]) s) (ascii "finished") []

/-- C143, keys of Finished messages. -/
theorem C143_finished (c : HashClass) (s s' th th' : List Byte) (client client' : Bool) (hs : s.length = digestLength c) (hs' : s'.length = digestLength c)
    (ht : th.length ≤ 255) (ht' : th'.length ≤ 255) (h : getFinishedKey c s th client = getFinishedKey c s' th' client') :
    (s = s' ∧ th = th' ∧ client = client') ∨ CollideIn c (finishedStrings c s th client) (finishedStrings c s' th' client') := by
  have e : ∀ s th client, getTrafficSecret c s th client true = .ok (Model.hmac c (Model.hkdfLabel (trafficLabel client true) th (hashsize c) ++ [1#8]) s) :=
    fun s th client => expandLabel_hashsize c s (trafficLabel client true) th
  have hlen : ∀ t k, (Model.hmac c t k).length = digestLength c := fun t k => by rw [Hk.hmac_length, hashsize_eq]
  rw [getFinishedKey, getFinishedKey, e, e, ok_bind, ok_bind] at h
  rcases label_binding c _ _ (ascii "finished") (ascii "finished") [] [] (hlen _ _) (hlen _ _) (by decide) (by decide) (by simp) (by simp) h with ⟨h1, _, _⟩ | h
  · rcases C143_traffic c s s' th th' client client' true true hs hs' ht ht' (by rw [e, e, h1]) with ⟨g1, g2, g3, _⟩ | g
    · exact .inl ⟨g1, g2, g3⟩
    · exact .inr g.left
  · exact .inr h.right

/-- The salt of `HKDF_HandshakeSecret` (include/caligo/hkdf.h:79). -/
def handshakeSalt (c : HashClass) : List Byte :=
  Model.hmac c (Model.hkdfLabel (ascii "derived") (hdata c (hnew0 c)) (hashsize c) ++ [1#8]) (Model.hkdfExtract c (resizeTo [] (hashsize c)) (resizeTo [] (hashsize c)))

/-- C143, handshake secret: the shared secret of the key agreement is determined. -/
theorem C143_handshake (c : HashClass) (z z' : List Byte) (hz : z.length < 2 ^ 60) (hz' : z'.length < 2 ^ 60) (h : hkdfHandshakeSecret c z = hkdfHandshakeSecret c z') :
    z = z' ∨ CollideIn c (macStrings c z (handshakeSalt c)) (macStrings c z' (handshakeSalt c)) := by
  have hlen : ∀ t k, (Model.hmac c t k).length = digestLength c := fun t k => by rw [Hk.hmac_length, hashsize_eq]
  have e : ∀ z, hkdfHandshakeSecret c z = .ok (Model.hmac c z (handshakeSalt c)) := by
    intro z
    rw [hkdfHandshakeSecret]
    rw [expandLabel_hashsize, ok_bind]
    rfl
  rw [e, e] at h
  rcases mac_binding c z _ z' _ hz hz' (hlen _ _) (hlen _ _) (Except.ok.inj h) with ⟨h, _⟩ | h
  · exact .inl h
  · exact .inr h

/-- A case that meets the hypotheses of `C143_handshake`. -/
example := C143_handshake .sha2_256 (List.replicate 32 1#8) (List.replicate 32 1#8) (by decide) (by decide) rfl

/-- The strings hashed in `HKDF_MasterSecret`. -/
noncomputable def masterStrings (c : HashClass) (s : List Byte) : List (List Byte) :=
  labelStrings c s (ascii "derived") (hdata c (hnew0 c)) ++
    macStrings c (resizeTo [] (hashsize c)) (Model.hmac c (Model.hkdfLabel (ascii "derived") (hdata c (hnew0 c)) (hashsize c) ++ [1#8]) s)

/-- C143, master secret: the handshake secret is determined. -/
theorem C143_master (c : HashClass) (s s' : List Byte) (hs : s.length = digestLength c) (hs' : s'.length = digestLength c) (h : hkdfMasterSecret c s = hkdfMasterSecret c s') :
    s = s' ∨ CollideIn c (masterStrings c s) (masterStrings c s') := by
  have hlen : ∀ t k, (Model.hmac c t k).length = digestLength c := fun t k => by rw [Hk.hmac_length, hashsize_eq]
  have e : ∀ s, hkdfMasterSecret c s = .ok (Model.hmac c (resizeTo [] (hashsize c)) (Model.hmac c (Model.hkdfLabel (ascii "derived") (hdata c (hnew0 c)) (hashsize c) ++ [1#8]) s)) := by
    intro z
    rw [hkdfMasterSecret]
    rw [expandLabel_hashsize, ok_bind]
    rfl
  have hn : (resizeTo [] (hashsize c)).length < 2 ^ 60 := by
    rw [resizeTo]
    have : hashsize c < 2 ^ 60 := by cases c <;> decide
    simpa using this
  have hd : (hdata c (hnew0 c)).length ≤ 255 := by cases c <;> decide +kernel
  rw [e, e] at h
  rcases mac_binding c _ _ _ _ hn hn (hlen _ _) (hlen _ _) (Except.ok.inj h) with ⟨_, h⟩ | h
  · rcases label_binding c s s' (ascii "derived") (ascii "derived") (hdata c (hnew0 c)) (hdata c (hnew0 c)) hs hs' (by decide) (by decide) hd hd
      (by rw [expandLabel_hashsize, expandLabel_hashsize, h]) with ⟨h, _⟩ | h
    · exact .inl h
    · exact .inr h.left
  · exact .inr h.right

/-- A case that meets the hypotheses of `C143_master`. -/
example := C143_master .sha2_256 (List.replicate 32 1#8) (List.replicate 32 1#8) (by decide) (by decide) rfl

/-- C143 from one end to the other: two sessions with the same client or server Finished key have the same shared secret, the same transcript hash and the same
side, or there is a collision among the strings they hash. -/
theorem C143_session (c : HashClass) (z z' th th' : List Byte) (client client' : Bool) (hz : z.length < 2 ^ 60) (hz' : z'.length < 2 ^ 60) (ht : th.length ≤ 255)
    (ht' : th'.length ≤ 255) (h : (hkdfHandshakeSecret c z >>= fun s => getFinishedKey c s th client) = (hkdfHandshakeSecret c z' >>= fun s => getFinishedKey c s th' client')) :
    (z = z' ∧ th = th' ∧ client = client') ∨
    CollideIn c (macStrings c z (handshakeSalt c) ++ finishedStrings c (Model.hmac c z (handshakeSalt c)) th client)
      (macStrings c z' (handshakeSalt c) ++ finishedStrings c (Model.hmac c z' (handshakeSalt c)) th' client') := by
  have hlen : ∀ t k, (Model.hmac c t k).length = digestLength c := fun t k => by rw [Hk.hmac_length, hashsize_eq]
  have e : ∀ z, hkdfHandshakeSecret c z = .ok (Model.hmac c z (handshakeSalt c)) := by
    intro z
    rw [hkdfHandshakeSecret]
    rw [expandLabel_hashsize, ok_bind]
    rfl
  rw [e, e, ok_bind, ok_bind] at h
  rcases C143_finished c _ _ th th' client client' (hlen _ _) (hlen _ _) ht ht' h with ⟨h1, h2, h3⟩ | h
  · rcases C143_handshake c z z' hz hz' (by rw [e, e, h1]) with h4 | h4
    · exact .inl ⟨h4, h2, h3⟩
    · exact .inr h4.left
  · exact .inr h.right

/-- The hypotheses hold for a shared secret of 32 bytes and a transcript hash of 32 bytes; the equation holds for equal inputs, and for different sides it gives
a collision of SHA-256. -/
example : (List.replicate 32 9#8).length < 2 ^ 60 ∧ (List.replicate 32 7#8).length ≤ 255 ∧ (List.replicate 32 1#8).length = digestLength .sha2_256 := by decide
example (h : getFinishedKey .sha2_256 (List.replicate 32 1#8) (List.replicate 32 7#8) true = getFinishedKey .sha2_256 (List.replicate 32 1#8) (List.replicate 32 7#8) false) :
    CollideIn .sha2_256 (finishedStrings .sha2_256 (List.replicate 32 1#8) (List.replicate 32 7#8) true)
      (finishedStrings .sha2_256 (List.replicate 32 1#8) (List.replicate 32 7#8) false) :=
  (C143_finished _ _ _ _ _ _ _ (by decide) (by decide) (by decide) (by decide) h).resolve_left (fun h => nomatch h.2.2)
example : hkdfHandshakeSecret .sha2_384 (List.replicate 32 9#8) = hkdfHandshakeSecret .sha2_384 (List.replicate 32 9#8) := rfl

end Verif.Props
