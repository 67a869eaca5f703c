import Verif.Ec25519.Prime

/-!
# The order of the base point is prime
-/

namespace Cex.Ed25519

open Cex.Ec25519

theorem prime_1257559732178653 : Nat.Prime 1257559732178653 :=
  lucas (a := 2) (b := 51) [2, 2, 3, 7, 23, 531581, 1224481]
    (by simp only [List.mem_cons, List.not_mem_nil, or_false, forall_eq_or_imp, forall_eq]
        exact ⟨(by norm_num), (by norm_num), (by norm_num), (by norm_num), (by norm_num), (by norm_num), (by norm_num)⟩)
    (by decide) (by decide +kernel) (by decide +kernel)

theorem prime_4434155615661930479 : Nat.Prime 4434155615661930479 :=
  lucas (a := 17) (b := 62) [2, 41, 43, 1257559732178653]
    (by simp only [List.mem_cons, List.not_mem_nil, or_false, forall_eq_or_imp, forall_eq]
        exact ⟨(by norm_num), (by norm_num), (by norm_num), prime_1257559732178653⟩)
    (by decide) (by decide +kernel) (by decide +kernel)

theorem prime_172054593956031949258510691 : Nat.Prime 172054593956031949258510691 :=
  lucas (a := 2) (b := 88) [2, 5, 1361, 2851, 4434155615661930479]
    (by simp only [List.mem_cons, List.not_mem_nil, or_false, forall_eq_or_imp, forall_eq]
        exact ⟨(by norm_num), (by norm_num), (by norm_num), (by norm_num), prime_4434155615661930479⟩)
    (by decide) (by decide +kernel) (by decide +kernel)

theorem prime_292386187 : Nat.Prime 292386187 :=
  lucas (a := 2) (b := 29) [2, 3, 3, 3, 3, 307, 5879]
    (by simp only [List.mem_cons, List.not_mem_nil, or_false, forall_eq_or_imp, forall_eq]
        exact ⟨(by norm_num), (by norm_num), (by norm_num), (by norm_num), (by norm_num), (by norm_num), (by norm_num)⟩)
    (by decide) (by decide +kernel) (by decide +kernel)

theorem prime_213441916511 : Nat.Prime 213441916511 :=
  lucas (a := 13) (b := 38) [2, 5, 73, 292386187]
    (by simp only [List.mem_cons, List.not_mem_nil, or_false, forall_eq_or_imp, forall_eq]
        exact ⟨(by norm_num), (by norm_num), (by norm_num), prime_292386187⟩)
    (by decide) (by decide +kernel) (by decide +kernel)

theorem prime_19757330305831588566944191468367130476339 : Nat.Prime 19757330305831588566944191468367130476339 :=
  lucas (a := 2) (b := 134) [2, 269, 213441916511, 172054593956031949258510691]
    (by simp only [List.mem_cons, List.not_mem_nil, or_false, forall_eq_or_imp, forall_eq]
        exact ⟨(by norm_num), (by norm_num), prime_213441916511, prime_172054593956031949258510691⟩)
    (by decide) (by decide +kernel) (by decide +kernel)

theorem prime_276602624281642239937218680557139826668747 : Nat.Prime 276602624281642239937218680557139826668747 :=
  lucas (a := 2) (b := 138) [2, 7, 19757330305831588566944191468367130476339]
    (by simp only [List.mem_cons, List.not_mem_nil, or_false, forall_eq_or_imp, forall_eq]
        exact ⟨(by norm_num), (by norm_num), prime_19757330305831588566944191468367130476339⟩)
    (by decide) (by decide +kernel) (by decide +kernel)

theorem prime_14741173 : Nat.Prime 14741173 :=
  lucas (a := 2) (b := 24) [2, 2, 3, 3, 409477]
    (by simp only [List.mem_cons, List.not_mem_nil, or_false, forall_eq_or_imp, forall_eq]
        exact ⟨(by norm_num), (by norm_num), (by norm_num), (by norm_num), (by norm_num)⟩)
    (by decide) (by decide +kernel) (by decide +kernel)

theorem prime_58964693 : Nat.Prime 58964693 :=
  lucas (a := 2) (b := 26) [2, 2, 14741173]
    (by simp only [List.mem_cons, List.not_mem_nil, or_false, forall_eq_or_imp, forall_eq]
        exact ⟨(by norm_num), (by norm_num), prime_14741173⟩)
    (by decide) (by decide +kernel) (by decide +kernel)

theorem prime_3044861653679985063343 : Nat.Prime 3044861653679985063343 :=
  lucas (a := 5) (b := 72) [2, 3, 11, 30703, 82163, 132667, 137849]
    (by simp only [List.mem_cons, List.not_mem_nil, or_false, forall_eq_or_imp, forall_eq]
        exact ⟨(by norm_num), (by norm_num), (by norm_num), (by norm_num), (by norm_num), (by norm_num), (by norm_num)⟩)
    (by decide) (by decide +kernel) (by decide +kernel)

theorem prime_198211423230930754013084525763697 : Nat.Prime 198211423230930754013084525763697 :=
  lucas (a := 5) (b := 108) [2, 2, 2, 2, 3, 23, 58964693, 3044861653679985063343]
    (by simp only [List.mem_cons, List.not_mem_nil, or_false, forall_eq_or_imp, forall_eq]
        exact ⟨(by norm_num), (by norm_num), (by norm_num), (by norm_num), (by norm_num), (by norm_num), prime_58964693, prime_3044861653679985063343⟩)
    (by decide) (by decide +kernel) (by decide +kernel)

theorem prime_7237005577332262213973186563042994240857116359379907606001950938285454250989 : Nat.Prime 7237005577332262213973186563042994240857116359379907606001950938285454250989 :=
  lucas (a := 2) (b := 253) [2, 2, 3, 11, 198211423230930754013084525763697, 276602624281642239937218680557139826668747]
    (by simp only [List.mem_cons, List.not_mem_nil, or_false, forall_eq_or_imp, forall_eq]
        exact ⟨(by norm_num), (by norm_num), (by norm_num), (by norm_num), prime_198211423230930754013084525763697, prime_276602624281642239937218680557139826668747⟩)
    (by decide) (by decide +kernel) (by decide +kernel)

end Cex.Ed25519
