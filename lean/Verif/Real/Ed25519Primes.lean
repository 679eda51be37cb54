import Verif.Real.Primes
/-
The field prime and the group order of Ed25519 are prime: certificates.
-/
namespace KC.Real.Ed25519

theorem prime_239 : Nat.Prime 239 := by
  refine pratt _ 7 [2, 7, 17] (by decide) (by decide +kernel) ?_ (by decide +kernel) (by decide +kernel) (by decide +kernel)
  simp only [List.forall_mem_cons, List.not_mem_nil, false_imp_iff, implies_true, and_true]
  exact ⟨by norm_num, by norm_num, by norm_num⟩

theorem prime_479 : Nat.Prime 479 := by
  refine pratt _ 13 [2, 239] (by decide) (by decide +kernel) ?_ (by decide +kernel) (by decide +kernel) (by decide +kernel)
  simp only [List.forall_mem_cons, List.not_mem_nil, false_imp_iff, implies_true, and_true]
  exact ⟨by norm_num, prime_239⟩

theorem prime_32573 : Nat.Prime 32573 := by
  refine pratt _ 2 [2, 2, 17, 479] (by decide) (by decide +kernel) ?_ (by decide +kernel) (by decide +kernel) (by decide +kernel)
  simp only [List.forall_mem_cons, List.not_mem_nil, false_imp_iff, implies_true, and_true]
  exact ⟨by norm_num, by norm_num, by norm_num, prime_479⟩

theorem prime_65147 : Nat.Prime 65147 := by
  refine pratt _ 2 [2, 32573] (by decide) (by decide +kernel) ?_ (by decide +kernel) (by decide +kernel) (by decide +kernel)
  simp only [List.forall_mem_cons, List.not_mem_nil, false_imp_iff, implies_true, and_true]
  exact ⟨by norm_num, prime_32573⟩

theorem prime_353 : Nat.Prime 353 := by
  refine pratt _ 3 [2, 2, 2, 2, 2, 11] (by decide) (by decide +kernel) ?_ (by decide +kernel) (by decide +kernel) (by decide +kernel)
  simp only [List.forall_mem_cons, List.not_mem_nil, false_imp_iff, implies_true, and_true]
  exact ⟨by norm_num, by norm_num, by norm_num, by norm_num, by norm_num, by norm_num⟩

theorem prime_487 : Nat.Prime 487 := by
  refine pratt _ 3 [2, 3, 3, 3, 3, 3] (by decide) (by decide +kernel) ?_ (by decide +kernel) (by decide +kernel) (by decide +kernel)
  simp only [List.forall_mem_cons, List.not_mem_nil, false_imp_iff, implies_true, and_true]
  exact ⟨by norm_num, by norm_num, by norm_num, by norm_num, by norm_num, by norm_num⟩

theorem prime_57467 : Nat.Prime 57467 := by
  refine pratt _ 2 [2, 59, 487] (by decide) (by decide +kernel) ?_ (by decide +kernel) (by decide +kernel) (by decide +kernel)
  simp only [List.forall_mem_cons, List.not_mem_nil, false_imp_iff, implies_true, and_true]
  exact ⟨by norm_num, by norm_num, prime_487⟩

theorem prime_131 : Nat.Prime 131 := by
  refine pratt _ 2 [2, 5, 13] (by decide) (by decide +kernel) ?_ (by decide +kernel) (by decide +kernel) (by decide +kernel)
  simp only [List.forall_mem_cons, List.not_mem_nil, false_imp_iff, implies_true, and_true]
  exact ⟨by norm_num, by norm_num, by norm_num⟩

theorem prime_132049 : Nat.Prime 132049 := by
  refine pratt _ 26 [2, 2, 2, 2, 3, 3, 7, 131] (by decide) (by decide +kernel) ?_ (by decide +kernel) (by decide +kernel) (by decide +kernel)
  simp only [List.forall_mem_cons, List.not_mem_nil, false_imp_iff, implies_true, and_true]
  exact ⟨by norm_num, by norm_num, by norm_num, by norm_num, by norm_num, by norm_num, by norm_num, prime_131⟩

theorem prime_3727 : Nat.Prime 3727 := by
  refine pratt _ 3 [2, 3, 3, 3, 3, 23] (by decide) (by decide +kernel) ?_ (by decide +kernel) (by decide +kernel) (by decide +kernel)
  simp only [List.forall_mem_cons, List.not_mem_nil, false_imp_iff, implies_true, and_true]
  exact ⟨by norm_num, by norm_num, by norm_num, by norm_num, by norm_num, by norm_num⟩

theorem prime_1923133 : Nat.Prime 1923133 := by
  refine pratt _ 2 [2, 2, 3, 43, 3727] (by decide) (by decide +kernel) ?_ (by decide +kernel) (by decide +kernel) (by decide +kernel)
  simp only [List.forall_mem_cons, List.not_mem_nil, false_imp_iff, implies_true, and_true]
  exact ⟨by norm_num, by norm_num, by norm_num, by norm_num, prime_3727⟩

theorem prime_107 : Nat.Prime 107 := by
  refine pratt _ 2 [2, 53] (by decide) (by decide +kernel) ?_ (by decide +kernel) (by decide +kernel) (by decide +kernel)
  simp only [List.forall_mem_cons, List.not_mem_nil, false_imp_iff, implies_true, and_true]
  exact ⟨by norm_num, by norm_num⟩

theorem prime_223 : Nat.Prime 223 := by
  refine pratt _ 3 [2, 3, 37] (by decide) (by decide +kernel) ?_ (by decide +kernel) (by decide +kernel) (by decide +kernel)
  simp only [List.forall_mem_cons, List.not_mem_nil, false_imp_iff, implies_true, and_true]
  exact ⟨by norm_num, by norm_num, by norm_num⟩

theorem prime_173 : Nat.Prime 173 := by
  refine pratt _ 2 [2, 2, 43] (by decide) (by decide +kernel) ?_ (by decide +kernel) (by decide +kernel) (by decide +kernel)
  simp only [List.forall_mem_cons, List.not_mem_nil, false_imp_iff, implies_true, and_true]
  exact ⟨by norm_num, by norm_num, by norm_num⟩

theorem prime_4153 : Nat.Prime 4153 := by
  refine pratt _ 5 [2, 2, 2, 3, 173] (by decide) (by decide +kernel) ?_ (by decide +kernel) (by decide +kernel) (by decide +kernel)
  simp only [List.forall_mem_cons, List.not_mem_nil, false_imp_iff, implies_true, and_true]
  exact ⟨by norm_num, by norm_num, by norm_num, by norm_num, prime_173⟩

theorem prime_1723 : Nat.Prime 1723 := by
  refine pratt _ 3 [2, 3, 7, 41] (by decide) (by decide +kernel) ?_ (by decide +kernel) (by decide +kernel) (by decide +kernel)
  simp only [List.forall_mem_cons, List.not_mem_nil, false_imp_iff, implies_true, and_true]
  exact ⟨by norm_num, by norm_num, by norm_num, by norm_num⟩

theorem prime_430751 : Nat.Prime 430751 := by
  refine pratt _ 17 [2, 5, 5, 5, 1723] (by decide) (by decide +kernel) ?_ (by decide +kernel) (by decide +kernel) (by decide +kernel)
  simp only [List.forall_mem_cons, List.not_mem_nil, false_imp_iff, implies_true, and_true]
  exact ⟨by norm_num, by norm_num, by norm_num, by norm_num, prime_1723⟩

theorem prime_31757755568855353 : Nat.Prime 31757755568855353 := by
  refine pratt _ 10 [2, 2, 2, 3, 31, 107, 223, 4153, 430751] (by decide) (by decide +kernel) ?_ (by decide +kernel) (by decide +kernel) (by decide +kernel)
  simp only [List.forall_mem_cons, List.not_mem_nil, false_imp_iff, implies_true, and_true]
  exact ⟨by norm_num, by norm_num, by norm_num, by norm_num, by norm_num, prime_107, prime_223, prime_4153, prime_430751⟩

theorem prime_9463 : Nat.Prime 9463 := by
  refine pratt _ 3 [2, 3, 19, 83] (by decide) (by decide +kernel) ?_ (by decide +kernel) (by decide +kernel) (by decide +kernel)
  simp only [List.forall_mem_cons, List.not_mem_nil, false_imp_iff, implies_true, and_true]
  exact ⟨by norm_num, by norm_num, by norm_num, by norm_num⟩

theorem prime_37853 : Nat.Prime 37853 := by
  refine pratt _ 2 [2, 2, 9463] (by decide) (by decide +kernel) ?_ (by decide +kernel) (by decide +kernel) (by decide +kernel)
  simp only [List.forall_mem_cons, List.not_mem_nil, false_imp_iff, implies_true, and_true]
  exact ⟨by norm_num, by norm_num, prime_9463⟩

theorem prime_75707 : Nat.Prime 75707 := by
  refine pratt _ 2 [2, 37853] (by decide) (by decide +kernel) ?_ (by decide +kernel) (by decide +kernel) (by decide +kernel)
  simp only [List.forall_mem_cons, List.not_mem_nil, false_imp_iff, implies_true, and_true]
  exact ⟨by norm_num, prime_37853⟩

theorem prime_2437 : Nat.Prime 2437 := by
  refine pratt _ 2 [2, 2, 3, 7, 29] (by decide) (by decide +kernel) ?_ (by decide +kernel) (by decide +kernel) (by decide +kernel)
  simp only [List.forall_mem_cons, List.not_mem_nil, false_imp_iff, implies_true, and_true]
  exact ⟨by norm_num, by norm_num, by norm_num, by norm_num, by norm_num⟩

theorem prime_419 : Nat.Prime 419 := by
  refine pratt _ 2 [2, 11, 19] (by decide) (by decide +kernel) ?_ (by decide +kernel) (by decide +kernel) (by decide +kernel)
  simp only [List.forall_mem_cons, List.not_mem_nil, false_imp_iff, implies_true, and_true]
  exact ⟨by norm_num, by norm_num, by norm_num⟩

theorem prime_569003 : Nat.Prime 569003 := by
  refine pratt _ 2 [2, 7, 97, 419] (by decide) (by decide +kernel) ?_ (by decide +kernel) (by decide +kernel) (by decide +kernel)
  simp only [List.forall_mem_cons, List.not_mem_nil, false_imp_iff, implies_true, and_true]
  exact ⟨by norm_num, by norm_num, by norm_num, prime_419⟩

theorem prime_2773320623 : Nat.Prime 2773320623 := by
  refine pratt _ 5 [2, 2437, 569003] (by decide) (by decide +kernel) ?_ (by decide +kernel) (by decide +kernel) (by decide +kernel)
  simp only [List.forall_mem_cons, List.not_mem_nil, false_imp_iff, implies_true, and_true]
  exact ⟨by norm_num, prime_2437, prime_569003⟩

theorem prime_72106336199 : Nat.Prime 72106336199 := by
  refine pratt _ 7 [2, 13, 2773320623] (by decide) (by decide +kernel) ?_ (by decide +kernel) (by decide +kernel) (by decide +kernel)
  simp only [List.forall_mem_cons, List.not_mem_nil, false_imp_iff, implies_true, and_true]
  exact ⟨by norm_num, by norm_num, prime_2773320623⟩

theorem prime_127 : Nat.Prime 127 := by
  refine pratt _ 3 [2, 3, 3, 7] (by decide) (by decide +kernel) ?_ (by decide +kernel) (by decide +kernel) (by decide +kernel)
  simp only [List.forall_mem_cons, List.not_mem_nil, false_imp_iff, implies_true, and_true]
  exact ⟨by norm_num, by norm_num, by norm_num, by norm_num⟩

theorem prime_103 : Nat.Prime 103 := by
  refine pratt _ 5 [2, 3, 17] (by decide) (by decide +kernel) ?_ (by decide +kernel) (by decide +kernel) (by decide +kernel)
  simp only [List.forall_mem_cons, List.not_mem_nil, false_imp_iff, implies_true, and_true]
  exact ⟨by norm_num, by norm_num, by norm_num⟩

theorem prime_991 : Nat.Prime 991 := by
  refine pratt _ 6 [2, 3, 3, 5, 11] (by decide) (by decide +kernel) ?_ (by decide +kernel) (by decide +kernel) (by decide +kernel)
  simp only [List.forall_mem_cons, List.not_mem_nil, false_imp_iff, implies_true, and_true]
  exact ⟨by norm_num, by norm_num, by norm_num, by norm_num, by norm_num⟩

theorem prime_8574133 : Nat.Prime 8574133 := by
  refine pratt _ 2 [2, 2, 3, 7, 103, 991] (by decide) (by decide +kernel) ?_ (by decide +kernel) (by decide +kernel) (by decide +kernel)
  simp only [List.forall_mem_cons, List.not_mem_nil, false_imp_iff, implies_true, and_true]
  exact ⟨by norm_num, by norm_num, by norm_num, by norm_num, prime_103, prime_991⟩

theorem prime_1919519569386763 : Nat.Prime 1919519569386763 := by
  refine pratt _ 2 [2, 3, 7, 19, 47, 47, 127, 8574133] (by decide) (by decide +kernel) ?_ (by decide +kernel) (by decide +kernel) (by decide +kernel)
  simp only [List.forall_mem_cons, List.not_mem_nil, false_imp_iff, implies_true, and_true]
  exact ⟨by norm_num, by norm_num, by norm_num, by norm_num, by norm_num, by norm_num, prime_127, prime_8574133⟩

theorem prime_75445702479781427272750846543864801 : Nat.Prime 75445702479781427272750846543864801 := by
  refine pratt _ 7 [2, 2, 2, 2, 2, 3, 3, 5, 5, 75707, 72106336199, 1919519569386763] (by decide) (by decide +kernel) ?_ (by decide +kernel) (by decide +kernel) (by decide +kernel)
  simp only [List.forall_mem_cons, List.not_mem_nil, false_imp_iff, implies_true, and_true]
  exact ⟨by norm_num, by norm_num, by norm_num, by norm_num, by norm_num, by norm_num, by norm_num, by norm_num, by norm_num, prime_75707, prime_72106336199, prime_1919519569386763⟩

theorem prime_74058212732561358302231226437062788676166966415465897661863160754340907 : Nat.Prime 74058212732561358302231226437062788676166966415465897661863160754340907 := by
  refine pratt _ 2 [2, 3, 353, 57467, 132049, 1923133, 31757755568855353, 75445702479781427272750846543864801] (by decide) (by decide +kernel) ?_ (by decide +kernel) (by decide +kernel) (by decide +kernel)
  simp only [List.forall_mem_cons, List.not_mem_nil, false_imp_iff, implies_true, and_true]
  exact ⟨by norm_num, by norm_num, prime_353, prime_57467, prime_132049, prime_1923133, prime_31757755568855353, prime_75445702479781427272750846543864801⟩

theorem prime_57896044618658097711785492504343953926634992332820282019728792003956564819949 : Nat.Prime 57896044618658097711785492504343953926634992332820282019728792003956564819949 := by
  refine pratt _ 2 [2, 2, 3, 65147, 74058212732561358302231226437062788676166966415465897661863160754340907] (by decide) (by decide +kernel) ?_ (by decide +kernel) (by decide +kernel) (by decide +kernel)
  simp only [List.forall_mem_cons, List.not_mem_nil, false_imp_iff, implies_true, and_true]
  exact ⟨by norm_num, by norm_num, by norm_num, prime_65147, prime_74058212732561358302231226437062788676166966415465897661863160754340907⟩

theorem prime_34123 : Nat.Prime 34123 := by
  refine pratt _ 2 [2, 3, 11, 11, 47] (by decide) (by decide +kernel) ?_ (by decide +kernel) (by decide +kernel) (by decide +kernel)
  simp only [List.forall_mem_cons, List.not_mem_nil, false_imp_iff, implies_true, and_true]
  exact ⟨by norm_num, by norm_num, by norm_num, by norm_num, by norm_num⟩

theorem prime_409477 : Nat.Prime 409477 := by
  refine pratt _ 2 [2, 2, 3, 34123] (by decide) (by decide +kernel) ?_ (by decide +kernel) (by decide +kernel) (by decide +kernel)
  simp only [List.forall_mem_cons, List.not_mem_nil, false_imp_iff, implies_true, and_true]
  exact ⟨by norm_num, by norm_num, by norm_num, prime_34123⟩

theorem prime_14741173 : Nat.Prime 14741173 := by
  refine pratt _ 2 [2, 2, 3, 3, 409477] (by decide) (by decide +kernel) ?_ (by decide +kernel) (by decide +kernel) (by decide +kernel)
  simp only [List.forall_mem_cons, List.not_mem_nil, false_imp_iff, implies_true, and_true]
  exact ⟨by norm_num, by norm_num, by norm_num, by norm_num, prime_409477⟩

theorem prime_58964693 : Nat.Prime 58964693 := by
  refine pratt _ 2 [2, 2, 14741173] (by decide) (by decide +kernel) ?_ (by decide +kernel) (by decide +kernel) (by decide +kernel)
  simp only [List.forall_mem_cons, List.not_mem_nil, false_imp_iff, implies_true, and_true]
  exact ⟨by norm_num, by norm_num, prime_14741173⟩

theorem prime_30703 : Nat.Prime 30703 := by
  refine pratt _ 3 [2, 3, 7, 17, 43] (by decide) (by decide +kernel) ?_ (by decide +kernel) (by decide +kernel) (by decide +kernel)
  simp only [List.forall_mem_cons, List.not_mem_nil, false_imp_iff, implies_true, and_true]
  exact ⟨by norm_num, by norm_num, by norm_num, by norm_num, by norm_num⟩

theorem prime_41081 : Nat.Prime 41081 := by
  refine pratt _ 3 [2, 2, 2, 5, 13, 79] (by decide) (by decide +kernel) ?_ (by decide +kernel) (by decide +kernel) (by decide +kernel)
  simp only [List.forall_mem_cons, List.not_mem_nil, false_imp_iff, implies_true, and_true]
  exact ⟨by norm_num, by norm_num, by norm_num, by norm_num, by norm_num, by norm_num⟩

theorem prime_82163 : Nat.Prime 82163 := by
  refine pratt _ 2 [2, 41081] (by decide) (by decide +kernel) ?_ (by decide +kernel) (by decide +kernel) (by decide +kernel)
  simp only [List.forall_mem_cons, List.not_mem_nil, false_imp_iff, implies_true, and_true]
  exact ⟨by norm_num, prime_41081⟩

theorem prime_22111 : Nat.Prime 22111 := by
  refine pratt _ 6 [2, 3, 5, 11, 67] (by decide) (by decide +kernel) ?_ (by decide +kernel) (by decide +kernel) (by decide +kernel)
  simp only [List.forall_mem_cons, List.not_mem_nil, false_imp_iff, implies_true, and_true]
  exact ⟨by norm_num, by norm_num, by norm_num, by norm_num, by norm_num⟩

theorem prime_132667 : Nat.Prime 132667 := by
  refine pratt _ 5 [2, 3, 22111] (by decide) (by decide +kernel) ?_ (by decide +kernel) (by decide +kernel) (by decide +kernel)
  simp only [List.forall_mem_cons, List.not_mem_nil, false_imp_iff, implies_true, and_true]
  exact ⟨by norm_num, by norm_num, prime_22111⟩

theorem prime_17231 : Nat.Prime 17231 := by
  refine pratt _ 13 [2, 5, 1723] (by decide) (by decide +kernel) ?_ (by decide +kernel) (by decide +kernel) (by decide +kernel)
  simp only [List.forall_mem_cons, List.not_mem_nil, false_imp_iff, implies_true, and_true]
  exact ⟨by norm_num, by norm_num, prime_1723⟩

theorem prime_137849 : Nat.Prime 137849 := by
  refine pratt _ 3 [2, 2, 2, 17231] (by decide) (by decide +kernel) ?_ (by decide +kernel) (by decide +kernel) (by decide +kernel)
  simp only [List.forall_mem_cons, List.not_mem_nil, false_imp_iff, implies_true, and_true]
  exact ⟨by norm_num, by norm_num, by norm_num, prime_17231⟩

theorem prime_3044861653679985063343 : Nat.Prime 3044861653679985063343 := by
  refine pratt _ 5 [2, 3, 11, 30703, 82163, 132667, 137849] (by decide) (by decide +kernel) ?_ (by decide +kernel) (by decide +kernel) (by decide +kernel)
  simp only [List.forall_mem_cons, List.not_mem_nil, false_imp_iff, implies_true, and_true]
  exact ⟨by norm_num, by norm_num, by norm_num, prime_30703, prime_82163, prime_132667, prime_137849⟩

theorem prime_198211423230930754013084525763697 : Nat.Prime 198211423230930754013084525763697 := by
  refine pratt _ 5 [2, 2, 2, 2, 3, 23, 58964693, 3044861653679985063343] (by decide) (by decide +kernel) ?_ (by decide +kernel) (by decide +kernel) (by decide +kernel)
  simp only [List.forall_mem_cons, List.not_mem_nil, false_imp_iff, implies_true, and_true]
  exact ⟨by norm_num, by norm_num, by norm_num, by norm_num, by norm_num, by norm_num, prime_58964693, prime_3044861653679985063343⟩

theorem prime_269 : Nat.Prime 269 := by
  refine pratt _ 2 [2, 2, 67] (by decide) (by decide +kernel) ?_ (by decide +kernel) (by decide +kernel) (by decide +kernel)
  simp only [List.forall_mem_cons, List.not_mem_nil, false_imp_iff, implies_true, and_true]
  exact ⟨by norm_num, by norm_num, by norm_num⟩

theorem prime_307 : Nat.Prime 307 := by
  refine pratt _ 5 [2, 3, 3, 17] (by decide) (by decide +kernel) ?_ (by decide +kernel) (by decide +kernel) (by decide +kernel)
  simp only [List.forall_mem_cons, List.not_mem_nil, false_imp_iff, implies_true, and_true]
  exact ⟨by norm_num, by norm_num, by norm_num, by norm_num⟩

theorem prime_113 : Nat.Prime 113 := by
  refine pratt _ 3 [2, 2, 2, 2, 7] (by decide) (by decide +kernel) ?_ (by decide +kernel) (by decide +kernel) (by decide +kernel)
  simp only [List.forall_mem_cons, List.not_mem_nil, false_imp_iff, implies_true, and_true]
  exact ⟨by norm_num, by norm_num, by norm_num, by norm_num, by norm_num⟩

theorem prime_2939 : Nat.Prime 2939 := by
  refine pratt _ 2 [2, 13, 113] (by decide) (by decide +kernel) ?_ (by decide +kernel) (by decide +kernel) (by decide +kernel)
  simp only [List.forall_mem_cons, List.not_mem_nil, false_imp_iff, implies_true, and_true]
  exact ⟨by norm_num, by norm_num, prime_113⟩

theorem prime_5879 : Nat.Prime 5879 := by
  refine pratt _ 11 [2, 2939] (by decide) (by decide +kernel) ?_ (by decide +kernel) (by decide +kernel) (by decide +kernel)
  simp only [List.forall_mem_cons, List.not_mem_nil, false_imp_iff, implies_true, and_true]
  exact ⟨by norm_num, prime_2939⟩

theorem prime_292386187 : Nat.Prime 292386187 := by
  refine pratt _ 2 [2, 3, 3, 3, 3, 307, 5879] (by decide) (by decide +kernel) ?_ (by decide +kernel) (by decide +kernel) (by decide +kernel)
  simp only [List.forall_mem_cons, List.not_mem_nil, false_imp_iff, implies_true, and_true]
  exact ⟨by norm_num, by norm_num, by norm_num, by norm_num, by norm_num, prime_307, prime_5879⟩

theorem prime_213441916511 : Nat.Prime 213441916511 := by
  refine pratt _ 13 [2, 5, 73, 292386187] (by decide) (by decide +kernel) ?_ (by decide +kernel) (by decide +kernel) (by decide +kernel)
  simp only [List.forall_mem_cons, List.not_mem_nil, false_imp_iff, implies_true, and_true]
  exact ⟨by norm_num, by norm_num, by norm_num, prime_292386187⟩

theorem prime_1361 : Nat.Prime 1361 := by
  refine pratt _ 3 [2, 2, 2, 2, 5, 17] (by decide) (by decide +kernel) ?_ (by decide +kernel) (by decide +kernel) (by decide +kernel)
  simp only [List.forall_mem_cons, List.not_mem_nil, false_imp_iff, implies_true, and_true]
  exact ⟨by norm_num, by norm_num, by norm_num, by norm_num, by norm_num, by norm_num⟩

theorem prime_2851 : Nat.Prime 2851 := by
  refine pratt _ 2 [2, 3, 5, 5, 19] (by decide) (by decide +kernel) ?_ (by decide +kernel) (by decide +kernel) (by decide +kernel)
  simp only [List.forall_mem_cons, List.not_mem_nil, false_imp_iff, implies_true, and_true]
  exact ⟨by norm_num, by norm_num, by norm_num, by norm_num, by norm_num⟩

theorem prime_3797 : Nat.Prime 3797 := by
  refine pratt _ 2 [2, 2, 13, 73] (by decide) (by decide +kernel) ?_ (by decide +kernel) (by decide +kernel) (by decide +kernel)
  simp only [List.forall_mem_cons, List.not_mem_nil, false_imp_iff, implies_true, and_true]
  exact ⟨by norm_num, by norm_num, by norm_num, by norm_num⟩

theorem prime_531581 : Nat.Prime 531581 := by
  refine pratt _ 2 [2, 2, 5, 7, 3797] (by decide) (by decide +kernel) ?_ (by decide +kernel) (by decide +kernel) (by decide +kernel)
  simp only [List.forall_mem_cons, List.not_mem_nil, false_imp_iff, implies_true, and_true]
  exact ⟨by norm_num, by norm_num, by norm_num, by norm_num, prime_3797⟩

theorem prime_2551 : Nat.Prime 2551 := by
  refine pratt _ 6 [2, 3, 5, 5, 17] (by decide) (by decide +kernel) ?_ (by decide +kernel) (by decide +kernel) (by decide +kernel)
  simp only [List.forall_mem_cons, List.not_mem_nil, false_imp_iff, implies_true, and_true]
  exact ⟨by norm_num, by norm_num, by norm_num, by norm_num, by norm_num⟩

theorem prime_1224481 : Nat.Prime 1224481 := by
  refine pratt _ 13 [2, 2, 2, 2, 2, 3, 5, 2551] (by decide) (by decide +kernel) ?_ (by decide +kernel) (by decide +kernel) (by decide +kernel)
  simp only [List.forall_mem_cons, List.not_mem_nil, false_imp_iff, implies_true, and_true]
  exact ⟨by norm_num, by norm_num, by norm_num, by norm_num, by norm_num, by norm_num, by norm_num, prime_2551⟩

theorem prime_1257559732178653 : Nat.Prime 1257559732178653 := by
  refine pratt _ 2 [2, 2, 3, 7, 23, 531581, 1224481] (by decide) (by decide +kernel) ?_ (by decide +kernel) (by decide +kernel) (by decide +kernel)
  simp only [List.forall_mem_cons, List.not_mem_nil, false_imp_iff, implies_true, and_true]
  exact ⟨by norm_num, by norm_num, by norm_num, by norm_num, by norm_num, prime_531581, prime_1224481⟩

theorem prime_4434155615661930479 : Nat.Prime 4434155615661930479 := by
  refine pratt _ 17 [2, 41, 43, 1257559732178653] (by decide) (by decide +kernel) ?_ (by decide +kernel) (by decide +kernel) (by decide +kernel)
  simp only [List.forall_mem_cons, List.not_mem_nil, false_imp_iff, implies_true, and_true]
  exact ⟨by norm_num, by norm_num, by norm_num, prime_1257559732178653⟩

theorem prime_172054593956031949258510691 : Nat.Prime 172054593956031949258510691 := by
  refine pratt _ 2 [2, 5, 1361, 2851, 4434155615661930479] (by decide) (by decide +kernel) ?_ (by decide +kernel) (by decide +kernel) (by decide +kernel)
  simp only [List.forall_mem_cons, List.not_mem_nil, false_imp_iff, implies_true, and_true]
  exact ⟨by norm_num, by norm_num, prime_1361, prime_2851, prime_4434155615661930479⟩

theorem prime_19757330305831588566944191468367130476339 : Nat.Prime 19757330305831588566944191468367130476339 := by
  refine pratt _ 2 [2, 269, 213441916511, 172054593956031949258510691] (by decide) (by decide +kernel) ?_ (by decide +kernel) (by decide +kernel) (by decide +kernel)
  simp only [List.forall_mem_cons, List.not_mem_nil, false_imp_iff, implies_true, and_true]
  exact ⟨by norm_num, prime_269, prime_213441916511, prime_172054593956031949258510691⟩

theorem prime_276602624281642239937218680557139826668747 : Nat.Prime 276602624281642239937218680557139826668747 := by
  refine pratt _ 2 [2, 7, 19757330305831588566944191468367130476339] (by decide) (by decide +kernel) ?_ (by decide +kernel) (by decide +kernel) (by decide +kernel)
  simp only [List.forall_mem_cons, List.not_mem_nil, false_imp_iff, implies_true, and_true]
  exact ⟨by norm_num, by norm_num, prime_19757330305831588566944191468367130476339⟩

theorem prime_7237005577332262213973186563042994240857116359379907606001950938285454250989 : Nat.Prime 7237005577332262213973186563042994240857116359379907606001950938285454250989 := by
  refine pratt _ 2 [2, 2, 3, 11, 198211423230930754013084525763697, 276602624281642239937218680557139826668747] (by decide) (by decide +kernel) ?_ (by decide +kernel) (by decide +kernel) (by decide +kernel)
  simp only [List.forall_mem_cons, List.not_mem_nil, false_imp_iff, implies_true, and_true]
  exact ⟨by norm_num, by norm_num, by norm_num, by norm_num, prime_198211423230930754013084525763697, prime_276602624281642239937218680557139826668747⟩

end KC.Real.Ed25519
