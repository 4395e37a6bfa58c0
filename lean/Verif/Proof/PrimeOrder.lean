import Verif.Proof.Prime25519

/-! The orders of the large subgroups of curve25519 and of its twist are prime. -/

namespace Verif.Proof

theorem prime_l0 : Nat.Prime 1257559732178653 :=
  lucas _ 2 [2, 2, 3, 7, 23, 531581, 1224481] (by decide +kernel) (by decide +kernel)
    (by
      intro q hq; simp only [List.mem_cons, List.not_mem_nil, or_false] at hq
      rcases hq with h | h | h | h | h | h | h <;> subst h
      all_goals first | norm_num)
    (by decide +kernel) (by decide +kernel) (by decide +kernel)

theorem prime_l1 : Nat.Prime 4434155615661930479 :=
  lucas _ 17 [2, 41, 43, 1257559732178653] (by decide +kernel) (by decide +kernel)
    (by
      intro q hq; simp only [List.mem_cons, List.not_mem_nil, or_false] at hq
      rcases hq with h | h | h | h <;> subst h
      all_goals first | exact prime_l0 | norm_num)
    (by decide +kernel) (by decide +kernel) (by decide +kernel)

theorem prime_l2 : Nat.Prime 172054593956031949258510691 :=
  lucas _ 2 [2, 5, 1361, 2851, 4434155615661930479] (by decide +kernel) (by decide +kernel)
    (by
      intro q hq; simp only [List.mem_cons, List.not_mem_nil, or_false] at hq
      rcases hq with h | h | h | h | h <;> subst h
      all_goals first | exact prime_l1 | norm_num)
    (by decide +kernel) (by decide +kernel) (by decide +kernel)

theorem prime_l3 : Nat.Prime 292386187 :=
  lucas _ 2 [2, 3, 3, 3, 3, 307, 5879] (by decide +kernel) (by decide +kernel)
    (by
      intro q hq; simp only [List.mem_cons, List.not_mem_nil, or_false] at hq
      rcases hq with h | h | h | h | h | h | h <;> subst h
      all_goals first | norm_num)
    (by decide +kernel) (by decide +kernel) (by decide +kernel)

theorem prime_l4 : Nat.Prime 213441916511 :=
  lucas _ 13 [2, 5, 73, 292386187] (by decide +kernel) (by decide +kernel)
    (by
      intro q hq; simp only [List.mem_cons, List.not_mem_nil, or_false] at hq
      rcases hq with h | h | h | h <;> subst h
      all_goals first | exact prime_l3 | norm_num)
    (by decide +kernel) (by decide +kernel) (by decide +kernel)

theorem prime_l5 : Nat.Prime 19757330305831588566944191468367130476339 :=
  lucas _ 2 [2, 269, 213441916511, 172054593956031949258510691] (by decide +kernel) (by decide +kernel)
    (by
      intro q hq; simp only [List.mem_cons, List.not_mem_nil, or_false] at hq
      rcases hq with h | h | h | h <;> subst h
      all_goals first | exact prime_l4 | exact prime_l2 | norm_num)
    (by decide +kernel) (by decide +kernel) (by decide +kernel)

theorem prime_l6 : Nat.Prime 276602624281642239937218680557139826668747 :=
  lucas _ 2 [2, 7, 19757330305831588566944191468367130476339] (by decide +kernel) (by decide +kernel)
    (by
      intro q hq; simp only [List.mem_cons, List.not_mem_nil, or_false] at hq
      rcases hq with h | h | h <;> subst h
      all_goals first | exact prime_l5 | norm_num)
    (by decide +kernel) (by decide +kernel) (by decide +kernel)

theorem prime_l7 : Nat.Prime 14741173 :=
  lucas _ 2 [2, 2, 3, 3, 409477] (by decide +kernel) (by decide +kernel)
    (by
      intro q hq; simp only [List.mem_cons, List.not_mem_nil, or_false] at hq
      rcases hq with h | h | h | h | h <;> subst h
      all_goals first | norm_num)
    (by decide +kernel) (by decide +kernel) (by decide +kernel)

theorem prime_l8 : Nat.Prime 58964693 :=
  lucas _ 2 [2, 2, 14741173] (by decide +kernel) (by decide +kernel)
    (by
      intro q hq; simp only [List.mem_cons, List.not_mem_nil, or_false] at hq
      rcases hq with h | h | h <;> subst h
      all_goals first | exact prime_l7 | norm_num)
    (by decide +kernel) (by decide +kernel) (by decide +kernel)

theorem prime_l9 : Nat.Prime 3044861653679985063343 :=
  lucas _ 5 [2, 3, 11, 30703, 82163, 132667, 137849] (by decide +kernel) (by decide +kernel)
    (by
      intro q hq; simp only [List.mem_cons, List.not_mem_nil, or_false] at hq
      rcases hq with h | h | h | h | h | h | h <;> subst h
      all_goals first | norm_num)
    (by decide +kernel) (by decide +kernel) (by decide +kernel)

theorem prime_l10 : Nat.Prime 198211423230930754013084525763697 :=
  lucas _ 5 [2, 2, 2, 2, 3, 23, 58964693, 3044861653679985063343] (by decide +kernel) (by decide +kernel)
    (by
      intro q hq; simp only [List.mem_cons, List.not_mem_nil, or_false] at hq
      rcases hq with h | h | h | h | h | h | h | h <;> subst h
      all_goals first | exact prime_l8 | exact prime_l9 | norm_num)
    (by decide +kernel) (by decide +kernel) (by decide +kernel)

theorem prime_order : Nat.Prime 7237005577332262213973186563042994240857116359379907606001950938285454250989 :=
  lucas _ 2 [2, 2, 3, 11, 198211423230930754013084525763697, 276602624281642239937218680557139826668747] (by decide +kernel) (by decide +kernel)
    (by
      intro q hq; simp only [List.mem_cons, List.not_mem_nil, or_false] at hq
      rcases hq with h | h | h | h | h | h <;> subst h
      all_goals first | exact prime_l10 | exact prime_l6 | norm_num)
    (by decide +kernel) (by decide +kernel) (by decide +kernel)

theorem prime_l12 : Nat.Prime 5171003929967 :=
  lucas _ 5 [2, 7, 31, 181, 2281, 28859] (by decide +kernel) (by decide +kernel)
    (by
      intro q hq; simp only [List.mem_cons, List.not_mem_nil, or_false] at hq
      rcases hq with h | h | h | h | h | h <;> subst h
      all_goals first | norm_num)
    (by decide +kernel) (by decide +kernel) (by decide +kernel)

theorem prime_l13 : Nat.Prime 22561162540501040539 :=
  lucas _ 3 [2, 3, 727169, 5171003929967] (by decide +kernel) (by decide +kernel)
    (by
      intro q hq; simp only [List.mem_cons, List.not_mem_nil, or_false] at hq
      rcases hq with h | h | h | h <;> subst h
      all_goals first | exact prime_l12 | norm_num)
    (by decide +kernel) (by decide +kernel) (by decide +kernel)

theorem prime_l14 : Nat.Prime 1013266244677 :=
  lucas _ 2 [2, 2, 3, 7, 383, 3911, 8053] (by decide +kernel) (by decide +kernel)
    (by
      intro q hq; simp only [List.mem_cons, List.not_mem_nil, or_false] at hq
      rcases hq with h | h | h | h | h | h | h <;> subst h
      all_goals first | norm_num)
    (by decide +kernel) (by decide +kernel) (by decide +kernel)

theorem prime_l15 : Nat.Prime 743104567 :=
  lucas _ 6 [2, 3, 3, 3637, 11351] (by decide +kernel) (by decide +kernel)
    (by
      intro q hq; simp only [List.mem_cons, List.not_mem_nil, or_false] at hq
      rcases hq with h | h | h | h | h <;> subst h
      all_goals first | norm_num)
    (by decide +kernel) (by decide +kernel) (by decide +kernel)

theorem prime_l16 : Nat.Prime 203852586375664218368381551393371968928013 :=
  lucas _ 2 [2, 2, 3, 743104567, 1013266244677, 22561162540501040539] (by decide +kernel) (by decide +kernel)
    (by
      intro q hq; simp only [List.mem_cons, List.not_mem_nil, or_false] at hq
      rcases hq with h | h | h | h | h | h <;> subst h
      all_goals first | exact prime_l15 | exact prime_l14 | exact prime_l13 | norm_num)
    (by decide +kernel) (by decide +kernel) (by decide +kernel)

theorem prime_l17 : Nat.Prime 104719073621178708975837602950775180438320278101 :=
  lucas _ 2 [2, 2, 5, 5, 11, 467, 203852586375664218368381551393371968928013] (by decide +kernel) (by decide +kernel)
    (by
      intro q hq; simp only [List.mem_cons, List.not_mem_nil, or_false] at hq
      rcases hq with h | h | h | h | h | h | h <;> subst h
      all_goals first | exact prime_l16 | norm_num)
    (by decide +kernel) (by decide +kernel) (by decide +kernel)

theorem prime_l18 : Nat.Prime 27413359092552162435694767700453926735143482401279781 :=
  lucas _ 2 [2, 2, 3, 5, 4363, 104719073621178708975837602950775180438320278101] (by decide +kernel) (by decide +kernel)
    (by
      intro q hq; simp only [List.mem_cons, List.not_mem_nil, or_false] at hq
      rcases hq with h | h | h | h | h | h <;> subst h
      all_goals first | exact prime_l17 | norm_num)
    (by decide +kernel) (by decide +kernel) (by decide +kernel)

theorem prime_l19 : Nat.Prime 1110318119 :=
  lucas _ 7 [2, 7, 13, 487, 12527] (by decide +kernel) (by decide +kernel)
    (by
      intro q hq; simp only [List.mem_cons, List.not_mem_nil, or_false] at hq
      rcases hq with h | h | h | h | h <;> subst h
      all_goals first | norm_num)
    (by decide +kernel) (by decide +kernel) (by decide +kernel)

theorem prime_l20 : Nat.Prime 2220636239 :=
  lucas _ 23 [2, 1110318119] (by decide +kernel) (by decide +kernel)
    (by
      intro q hq; simp only [List.mem_cons, List.not_mem_nil, or_false] at hq
      rcases hq with h | h <;> subst h
      all_goals first | exact prime_l19 | norm_num)
    (by decide +kernel) (by decide +kernel) (by decide +kernel)

theorem prime_twist : Nat.Prime 14474011154664524427946373126085988481603263447650325797860494125407373907997 :=
  lucas _ 2 [2, 2, 79, 117223, 6418733, 2220636239, 27413359092552162435694767700453926735143482401279781] (by decide +kernel) (by decide +kernel)
    (by
      intro q hq; simp only [List.mem_cons, List.not_mem_nil, or_false] at hq
      rcases hq with h | h | h | h | h | h | h <;> subst h
      all_goals first | exact prime_l20 | exact prime_l18 | norm_num)
    (by decide +kernel) (by decide +kernel) (by decide +kernel)

end Verif.Proof
