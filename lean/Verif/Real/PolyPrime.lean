import Verif.Real.Primes
/-
The prime of Poly1305: certificates.
-/
namespace KC.Real.Chacha

theorem prime_109 : Nat.Prime 109 := by
  refine pratt _ 6 [2, 2, 3, 3, 3] (by decide) (by decide +kernel) ?_ (by decide +kernel) (by decide +kernel) (by decide +kernel)
  simp only [List.forall_mem_cons, List.not_mem_nil, false_imp_iff, implies_true, and_true]
  exact ⟨by norm_num, by norm_num, by norm_num, by norm_num, by norm_num⟩

theorem prime_19403 : Nat.Prime 19403 := by
  refine pratt _ 2 [2, 89, 109] (by decide) (by decide +kernel) ?_ (by decide +kernel) (by decide +kernel) (by decide +kernel)
  simp only [List.forall_mem_cons, List.not_mem_nil, false_imp_iff, implies_true, and_true]
  exact ⟨by norm_num, by norm_num, prime_109⟩

theorem prime_32985101 : Nat.Prime 32985101 := by
  refine pratt _ 2 [2, 2, 5, 5, 17, 19403] (by decide) (by decide +kernel) ?_ (by decide +kernel) (by decide +kernel) (by decide +kernel)
  simp only [List.forall_mem_cons, List.not_mem_nil, false_imp_iff, implies_true, and_true]
  exact ⟨by norm_num, by norm_num, by norm_num, by norm_num, by norm_num, prime_19403⟩

theorem prime_487 : Nat.Prime 487 := by
  refine pratt _ 3 [2, 3, 3, 3, 3, 3] (by decide) (by decide +kernel) ?_ (by decide +kernel) (by decide +kernel) (by decide +kernel)
  simp only [List.forall_mem_cons, List.not_mem_nil, false_imp_iff, implies_true, and_true]
  exact ⟨by norm_num, by norm_num, by norm_num, by norm_num, by norm_num, by norm_num⟩

theorem prime_461 : Nat.Prime 461 := by
  refine pratt _ 2 [2, 2, 5, 23] (by decide) (by decide +kernel) ?_ (by decide +kernel) (by decide +kernel) (by decide +kernel)
  simp only [List.forall_mem_cons, List.not_mem_nil, false_imp_iff, implies_true, and_true]
  exact ⟨by norm_num, by norm_num, by norm_num, by norm_num⟩

theorem prime_3134801 : Nat.Prime 3134801 := by
  refine pratt _ 3 [2, 2, 2, 2, 5, 5, 17, 461] (by decide) (by decide +kernel) ?_ (by decide +kernel) (by decide +kernel) (by decide +kernel)
  simp only [List.forall_mem_cons, List.not_mem_nil, false_imp_iff, implies_true, and_true]
  exact ⟨by norm_num, by norm_num, by norm_num, by norm_num, by norm_num, by norm_num, by norm_num, prime_461⟩

theorem prime_4889 : Nat.Prime 4889 := by
  refine pratt _ 3 [2, 2, 2, 13, 47] (by decide) (by decide +kernel) ?_ (by decide +kernel) (by decide +kernel) (by decide +kernel)
  simp only [List.forall_mem_cons, List.not_mem_nil, false_imp_iff, implies_true, and_true]
  exact ⟨by norm_num, by norm_num, by norm_num, by norm_num, by norm_num⟩

theorem prime_881 : Nat.Prime 881 := by
  refine pratt _ 3 [2, 2, 2, 2, 5, 11] (by decide) (by decide +kernel) ?_ (by decide +kernel) (by decide +kernel) (by decide +kernel)
  simp only [List.forall_mem_cons, List.not_mem_nil, false_imp_iff, implies_true, and_true]
  exact ⟨by norm_num, by norm_num, by norm_num, by norm_num, by norm_num, by norm_num⟩

theorem prime_37003 : Nat.Prime 37003 := by
  refine pratt _ 2 [2, 3, 7, 881] (by decide) (by decide +kernel) ?_ (by decide +kernel) (by decide +kernel) (by decide +kernel)
  simp only [List.forall_mem_cons, List.not_mem_nil, false_imp_iff, implies_true, and_true]
  exact ⟨by norm_num, by norm_num, by norm_num, prime_881⟩

theorem prime_221101 : Nat.Prime 221101 := by
  refine pratt _ 22 [2, 2, 3, 5, 5, 11, 67] (by decide) (by decide +kernel) ?_ (by decide +kernel) (by decide +kernel) (by decide +kernel)
  simp only [List.forall_mem_cons, List.not_mem_nil, false_imp_iff, implies_true, and_true]
  exact ⟨by norm_num, by norm_num, by norm_num, by norm_num, by norm_num, by norm_num, by norm_num⟩

theorem prime_4024685905107147541 : Nat.Prime 4024685905107147541 := by
  refine pratt _ 2 [2, 2, 3, 3, 5, 13, 43, 4889, 37003, 221101] (by decide) (by decide +kernel) ?_ (by decide +kernel) (by decide +kernel) (by decide +kernel)
  simp only [List.forall_mem_cons, List.not_mem_nil, false_imp_iff, implies_true, and_true]
  exact ⟨by norm_num, by norm_num, by norm_num, by norm_num, by norm_num, by norm_num, by norm_num, prime_4889, prime_37003, prime_221101⟩

theorem prime_897064739519922787230182993783 : Nat.Prime 897064739519922787230182993783 := by
  refine pratt _ 5 [2, 73, 487, 3134801, 4024685905107147541] (by decide) (by decide +kernel) ?_ (by decide +kernel) (by decide +kernel) (by decide +kernel)
  simp only [List.forall_mem_cons, List.not_mem_nil, false_imp_iff, implies_true, and_true]
  exact ⟨by norm_num, by norm_num, prime_487, prime_3134801, prime_4024685905107147541⟩

theorem prime_1361129467683753853853498429727072845819 : Nat.Prime 1361129467683753853853498429727072845819 := by
  refine pratt _ 2 [2, 23, 32985101, 897064739519922787230182993783] (by decide) (by decide +kernel) ?_ (by decide +kernel) (by decide +kernel) (by decide +kernel)
  simp only [List.forall_mem_cons, List.not_mem_nil, false_imp_iff, implies_true, and_true]
  exact ⟨by norm_num, by norm_num, prime_32985101, prime_897064739519922787230182993783⟩

end KC.Real.Chacha
