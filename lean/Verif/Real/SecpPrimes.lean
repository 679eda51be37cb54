import Verif.Real.Primes
/-
The field prime and the order of secp256k1 are prime: certificates.
-/
namespace KC.Real.Secp256k1

theorem prime_149 : Nat.Prime 149 := by
  refine pratt _ 2 [2, 2, 37] (by decide) (by decide +kernel) ?_ (by decide +kernel) (by decide +kernel) (by decide +kernel)
  simp only [List.forall_mem_cons, List.not_mem_nil, false_imp_iff, implies_true, and_true]
  exact ⟨by norm_num, by norm_num, by norm_num⟩

theorem prime_631 : Nat.Prime 631 := by
  refine pratt _ 3 [2, 3, 3, 5, 7] (by decide) (by decide +kernel) ?_ (by decide +kernel) (by decide +kernel) (by decide +kernel)
  simp only [List.forall_mem_cons, List.not_mem_nil, false_imp_iff, implies_true, and_true]
  exact ⟨by norm_num, by norm_num, by norm_num, by norm_num, by norm_num⟩

theorem prime_16699 : Nat.Prime 16699 := by
  refine pratt _ 3 [2, 3, 11, 11, 23] (by decide) (by decide +kernel) ?_ (by decide +kernel) (by decide +kernel) (by decide +kernel)
  simp only [List.forall_mem_cons, List.not_mem_nil, false_imp_iff, implies_true, and_true]
  exact ⟨by norm_num, by norm_num, by norm_num, by norm_num, by norm_num⟩

theorem prime_2861 : Nat.Prime 2861 := by
  refine pratt _ 2 [2, 2, 5, 11, 13] (by decide) (by decide +kernel) ?_ (by decide +kernel) (by decide +kernel) (by decide +kernel)
  simp only [List.forall_mem_cons, List.not_mem_nil, false_imp_iff, implies_true, and_true]
  exact ⟨by norm_num, by norm_num, by norm_num, by norm_num, by norm_num⟩

theorem prime_85831 : Nat.Prime 85831 := by
  refine pratt _ 3 [2, 3, 5, 2861] (by decide) (by decide +kernel) ?_ (by decide +kernel) (by decide +kernel) (by decide +kernel)
  simp only [List.forall_mem_cons, List.not_mem_nil, false_imp_iff, implies_true, and_true]
  exact ⟨by norm_num, by norm_num, by norm_num, prime_2861⟩

theorem prime_2011 : Nat.Prime 2011 := by
  refine pratt _ 3 [2, 3, 5, 67] (by decide) (by decide +kernel) ?_ (by decide +kernel) (by decide +kernel) (by decide +kernel)
  simp only [List.forall_mem_cons, List.not_mem_nil, false_imp_iff, implies_true, and_true]
  exact ⟨by norm_num, by norm_num, by norm_num, by norm_num⟩

theorem prime_4681609 : Nat.Prime 4681609 := by
  refine pratt _ 23 [2, 2, 2, 3, 97, 2011] (by decide) (by decide +kernel) ?_ (by decide +kernel) (by decide +kernel) (by decide +kernel)
  simp only [List.forall_mem_cons, List.not_mem_nil, false_imp_iff, implies_true, and_true]
  exact ⟨by norm_num, by norm_num, by norm_num, by norm_num, by norm_num, prime_2011⟩

theorem prime_107361793816595537 : Nat.Prime 107361793816595537 := by
  refine pratt _ 3 [2, 2, 2, 2, 16699, 85831, 4681609] (by decide) (by decide +kernel) ?_ (by decide +kernel) (by decide +kernel) (by decide +kernel)
  simp only [List.forall_mem_cons, List.not_mem_nil, false_imp_iff, implies_true, and_true]
  exact ⟨by norm_num, by norm_num, by norm_num, by norm_num, prime_16699, prime_85831, prime_4681609⟩

theorem prime_4051 : Nat.Prime 4051 := by
  refine pratt _ 10 [2, 3, 3, 3, 3, 5, 5] (by decide) (by decide +kernel) ?_ (by decide +kernel) (by decide +kernel) (by decide +kernel)
  simp only [List.forall_mem_cons, List.not_mem_nil, false_imp_iff, implies_true, and_true]
  exact ⟨by norm_num, by norm_num, by norm_num, by norm_num, by norm_num, by norm_num, by norm_num⟩

theorem prime_113 : Nat.Prime 113 := by
  refine pratt _ 3 [2, 2, 2, 2, 7] (by decide) (by decide +kernel) ?_ (by decide +kernel) (by decide +kernel) (by decide +kernel)
  simp only [List.forall_mem_cons, List.not_mem_nil, false_imp_iff, implies_true, and_true]
  exact ⟨by norm_num, by norm_num, by norm_num, by norm_num, by norm_num⟩

theorem prime_120233 : Nat.Prime 120233 := by
  refine pratt _ 3 [2, 2, 2, 7, 19, 113] (by decide) (by decide +kernel) ?_ (by decide +kernel) (by decide +kernel) (by decide +kernel)
  simp only [List.forall_mem_cons, List.not_mem_nil, false_imp_iff, implies_true, and_true]
  exact ⟨by norm_num, by norm_num, by norm_num, by norm_num, by norm_num, prime_113⟩

theorem prime_199 : Nat.Prime 199 := by
  refine pratt _ 3 [2, 3, 3, 11] (by decide) (by decide +kernel) ?_ (by decide +kernel) (by decide +kernel) (by decide +kernel)
  simp only [List.forall_mem_cons, List.not_mem_nil, false_imp_iff, implies_true, and_true]
  exact ⟨by norm_num, by norm_num, by norm_num, by norm_num⟩

theorem prime_797 : Nat.Prime 797 := by
  refine pratt _ 2 [2, 2, 199] (by decide) (by decide +kernel) ?_ (by decide +kernel) (by decide +kernel) (by decide +kernel)
  simp only [List.forall_mem_cons, List.not_mem_nil, false_imp_iff, implies_true, and_true]
  exact ⟨by norm_num, by norm_num, prime_199⟩

theorem prime_9349 : Nat.Prime 9349 := by
  refine pratt _ 2 [2, 2, 3, 19, 41] (by decide) (by decide +kernel) ?_ (by decide +kernel) (by decide +kernel) (by decide +kernel)
  simp only [List.forall_mem_cons, List.not_mem_nil, false_imp_iff, implies_true, and_true]
  exact ⟨by norm_num, by norm_num, by norm_num, by norm_num, by norm_num⟩

theorem prime_44706919 : Nat.Prime 44706919 := by
  refine pratt _ 6 [2, 3, 797, 9349] (by decide) (by decide +kernel) ?_ (by decide +kernel) (by decide +kernel) (by decide +kernel)
  simp only [List.forall_mem_cons, List.not_mem_nil, false_imp_iff, implies_true, and_true]
  exact ⟨by norm_num, by norm_num, prime_797, prime_9349⟩

theorem prime_174723607534414371449 : Nat.Prime 174723607534414371449 := by
  refine pratt _ 3 [2, 2, 2, 17, 59, 4051, 120233, 44706919] (by decide) (by decide +kernel) ?_ (by decide +kernel) (by decide +kernel) (by decide +kernel)
  simp only [List.forall_mem_cons, List.not_mem_nil, false_imp_iff, implies_true, and_true]
  exact ⟨by norm_num, by norm_num, by norm_num, by norm_num, by norm_num, prime_4051, prime_120233, prime_44706919⟩

theorem prime_109 : Nat.Prime 109 := by
  refine pratt _ 6 [2, 2, 3, 3, 3] (by decide) (by decide +kernel) ?_ (by decide +kernel) (by decide +kernel) (by decide +kernel)
  simp only [List.forall_mem_cons, List.not_mem_nil, false_imp_iff, implies_true, and_true]
  exact ⟨by norm_num, by norm_num, by norm_num, by norm_num, by norm_num⟩

theorem prime_293 : Nat.Prime 293 := by
  refine pratt _ 2 [2, 2, 73] (by decide) (by decide +kernel) ?_ (by decide +kernel) (by decide +kernel) (by decide +kernel)
  simp only [List.forall_mem_cons, List.not_mem_nil, false_imp_iff, implies_true, and_true]
  exact ⟨by norm_num, by norm_num, by norm_num⟩

theorem prime_2731 : Nat.Prime 2731 := by
  refine pratt _ 3 [2, 3, 5, 7, 13] (by decide) (by decide +kernel) ?_ (by decide +kernel) (by decide +kernel) (by decide +kernel)
  simp only [List.forall_mem_cons, List.not_mem_nil, false_imp_iff, implies_true, and_true]
  exact ⟨by norm_num, by norm_num, by norm_num, by norm_num, by norm_num⟩

theorem prime_305873 : Nat.Prime 305873 := by
  refine pratt _ 3 [2, 2, 2, 2, 7, 2731] (by decide) (by decide +kernel) ?_ (by decide +kernel) (by decide +kernel) (by decide +kernel)
  simp only [List.forall_mem_cons, List.not_mem_nil, false_imp_iff, implies_true, and_true]
  exact ⟨by norm_num, by norm_num, by norm_num, by norm_num, by norm_num, prime_2731⟩

theorem prime_1409 : Nat.Prime 1409 := by
  refine pratt _ 3 [2, 2, 2, 2, 2, 2, 2, 11] (by decide) (by decide +kernel) ?_ (by decide +kernel) (by decide +kernel) (by decide +kernel)
  simp only [List.forall_mem_cons, List.not_mem_nil, false_imp_iff, implies_true, and_true]
  exact ⟨by norm_num, by norm_num, by norm_num, by norm_num, by norm_num, by norm_num, by norm_num, by norm_num⟩

theorem prime_28181 : Nat.Prime 28181 := by
  refine pratt _ 2 [2, 2, 5, 1409] (by decide) (by decide +kernel) ?_ (by decide +kernel) (by decide +kernel) (by decide +kernel)
  simp only [List.forall_mem_cons, List.not_mem_nil, false_imp_iff, implies_true, and_true]
  exact ⟨by norm_num, by norm_num, by norm_num, prime_1409⟩

theorem prime_545358713 : Nat.Prime 545358713 := by
  refine pratt _ 5 [2, 2, 2, 41, 59, 28181] (by decide) (by decide +kernel) ?_ (by decide +kernel) (by decide +kernel) (by decide +kernel)
  simp only [List.forall_mem_cons, List.not_mem_nil, false_imp_iff, implies_true, and_true]
  exact ⟨by norm_num, by norm_num, by norm_num, by norm_num, by norm_num, prime_28181⟩

theorem prime_461 : Nat.Prime 461 := by
  refine pratt _ 2 [2, 2, 5, 23] (by decide) (by decide +kernel) ?_ (by decide +kernel) (by decide +kernel) (by decide +kernel)
  simp only [List.forall_mem_cons, List.not_mem_nil, false_imp_iff, implies_true, and_true]
  exact ⟨by norm_num, by norm_num, by norm_num, by norm_num⟩

theorem prime_1871 : Nat.Prime 1871 := by
  refine pratt _ 14 [2, 5, 11, 17] (by decide) (by decide +kernel) ?_ (by decide +kernel) (by decide +kernel) (by decide +kernel)
  simp only [List.forall_mem_cons, List.not_mem_nil, false_imp_iff, implies_true, and_true]
  exact ⟨by norm_num, by norm_num, by norm_num, by norm_num⟩

theorem prime_1627771 : Nat.Prime 1627771 := by
  refine pratt _ 3 [2, 3, 5, 29, 1871] (by decide) (by decide +kernel) ?_ (by decide +kernel) (by decide +kernel) (by decide +kernel)
  simp only [List.forall_mem_cons, List.not_mem_nil, false_imp_iff, implies_true, and_true]
  exact ⟨by norm_num, by norm_num, by norm_num, by norm_num, prime_1871⟩

theorem prime_297159362677 : Nat.Prime 297159362677 := by
  refine pratt _ 2 [2, 2, 3, 3, 11, 461, 1627771] (by decide) (by decide +kernel) ?_ (by decide +kernel) (by decide +kernel) (by decide +kernel)
  simp only [List.forall_mem_cons, List.not_mem_nil, false_imp_iff, implies_true, and_true]
  exact ⟨by norm_num, by norm_num, by norm_num, by norm_num, by norm_num, prime_461, prime_1627771⟩

theorem prime_29047611873442575647497758179 : Nat.Prime 29047611873442575647497758179 := by
  refine pratt _ 2 [2, 293, 305873, 545358713, 297159362677] (by decide) (by decide +kernel) ?_ (by decide +kernel) (by decide +kernel) (by decide +kernel)
  simp only [List.forall_mem_cons, List.not_mem_nil, false_imp_iff, implies_true, and_true]
  exact ⟨by norm_num, prime_293, prime_305873, prime_545358713, prime_297159362677⟩

theorem prime_341948486974166000522343609283189 : Nat.Prime 341948486974166000522343609283189 := by
  refine pratt _ 2 [2, 2, 3, 3, 3, 109, 29047611873442575647497758179] (by decide) (by decide +kernel) ?_ (by decide +kernel) (by decide +kernel) (by decide +kernel)
  simp only [List.forall_mem_cons, List.not_mem_nil, false_imp_iff, implies_true, and_true]
  exact ⟨by norm_num, by norm_num, by norm_num, by norm_num, by norm_num, prime_109, prime_29047611873442575647497758179⟩

theorem prime_115792089237316195423570985008687907852837564279074904382605163141518161494337 : Nat.Prime 115792089237316195423570985008687907852837564279074904382605163141518161494337 := by
  refine pratt _ 7 [2, 2, 2, 2, 2, 2, 3, 149, 631, 107361793816595537, 174723607534414371449, 341948486974166000522343609283189] (by decide) (by decide +kernel) ?_ (by decide +kernel) (by decide +kernel) (by decide +kernel)
  simp only [List.forall_mem_cons, List.not_mem_nil, false_imp_iff, implies_true, and_true]
  exact ⟨by norm_num, by norm_num, by norm_num, by norm_num, by norm_num, by norm_num, by norm_num, prime_149, prime_631, prime_107361793816595537, prime_174723607534414371449, prime_341948486974166000522343609283189⟩

theorem prime_13441 : Nat.Prime 13441 := by
  refine pratt _ 11 [2, 2, 2, 2, 2, 2, 2, 3, 5, 7] (by decide) (by decide +kernel) ?_ (by decide +kernel) (by decide +kernel) (by decide +kernel)
  simp only [List.forall_mem_cons, List.not_mem_nil, false_imp_iff, implies_true, and_true]
  exact ⟨by norm_num, by norm_num, by norm_num, by norm_num, by norm_num, by norm_num, by norm_num, by norm_num, by norm_num, by norm_num⟩

theorem prime_7723 : Nat.Prime 7723 := by
  refine pratt _ 3 [2, 3, 3, 3, 11, 13] (by decide) (by decide +kernel) ?_ (by decide +kernel) (by decide +kernel) (by decide +kernel)
  simp only [List.forall_mem_cons, List.not_mem_nil, false_imp_iff, implies_true, and_true]
  exact ⟨by norm_num, by norm_num, by norm_num, by norm_num, by norm_num, by norm_num⟩

theorem prime_443 : Nat.Prime 443 := by
  refine pratt _ 2 [2, 13, 17] (by decide) (by decide +kernel) ?_ (by decide +kernel) (by decide +kernel) (by decide +kernel)
  simp only [List.forall_mem_cons, List.not_mem_nil, false_imp_iff, implies_true, and_true]
  exact ⟨by norm_num, by norm_num, by norm_num⟩

theorem prime_887 : Nat.Prime 887 := by
  refine pratt _ 5 [2, 443] (by decide) (by decide +kernel) ?_ (by decide +kernel) (by decide +kernel) (by decide +kernel)
  simp only [List.forall_mem_cons, List.not_mem_nil, false_imp_iff, implies_true, and_true]
  exact ⟨by norm_num, prime_443⟩

theorem prime_5323 : Nat.Prime 5323 := by
  refine pratt _ 5 [2, 3, 887] (by decide) (by decide +kernel) ?_ (by decide +kernel) (by decide +kernel) (by decide +kernel)
  simp only [List.forall_mem_cons, List.not_mem_nil, false_imp_iff, implies_true, and_true]
  exact ⟨by norm_num, by norm_num, prime_887⟩

theorem prime_131 : Nat.Prime 131 := by
  refine pratt _ 2 [2, 5, 13] (by decide) (by decide +kernel) ?_ (by decide +kernel) (by decide +kernel) (by decide +kernel)
  simp only [List.forall_mem_cons, List.not_mem_nil, false_imp_iff, implies_true, and_true]
  exact ⟨by norm_num, by norm_num, by norm_num⟩

theorem prime_2621 : Nat.Prime 2621 := by
  refine pratt _ 2 [2, 2, 5, 131] (by decide) (by decide +kernel) ?_ (by decide +kernel) (by decide +kernel) (by decide +kernel)
  simp only [List.forall_mem_cons, List.not_mem_nil, false_imp_iff, implies_true, and_true]
  exact ⟨by norm_num, by norm_num, by norm_num, prime_131⟩

theorem prime_24809 : Nat.Prime 24809 := by
  refine pratt _ 6 [2, 2, 2, 7, 443] (by decide) (by decide +kernel) ?_ (by decide +kernel) (by decide +kernel) (by decide +kernel)
  simp only [List.forall_mem_cons, List.not_mem_nil, false_imp_iff, implies_true, and_true]
  exact ⟨by norm_num, by norm_num, by norm_num, by norm_num, prime_443⟩

theorem prime_971 : Nat.Prime 971 := by
  refine pratt _ 6 [2, 5, 97] (by decide) (by decide +kernel) ?_ (by decide +kernel) (by decide +kernel) (by decide +kernel)
  simp only [List.forall_mem_cons, List.not_mem_nil, false_imp_iff, implies_true, and_true]
  exact ⟨by norm_num, by norm_num, by norm_num⟩

theorem prime_1373 : Nat.Prime 1373 := by
  refine pratt _ 2 [2, 2, 7, 7, 7] (by decide) (by decide +kernel) ?_ (by decide +kernel) (by decide +kernel) (by decide +kernel)
  simp only [List.forall_mem_cons, List.not_mem_nil, false_imp_iff, implies_true, and_true]
  exact ⟨by norm_num, by norm_num, by norm_num, by norm_num, by norm_num⟩

theorem prime_13331831 : Nat.Prime 13331831 := by
  refine pratt _ 13 [2, 5, 971, 1373] (by decide) (by decide +kernel) ?_ (by decide +kernel) (by decide +kernel) (by decide +kernel)
  simp only [List.forall_mem_cons, List.not_mem_nil, false_imp_iff, implies_true, and_true]
  exact ⟨by norm_num, by norm_num, prime_971, prime_1373⟩

theorem prime_173378833005251801 : Nat.Prime 173378833005251801 := by
  refine pratt _ 6 [2, 2, 2, 5, 5, 2621, 24809, 13331831] (by decide) (by decide +kernel) ?_ (by decide +kernel) (by decide +kernel) (by decide +kernel)
  simp only [List.forall_mem_cons, List.not_mem_nil, false_imp_iff, implies_true, and_true]
  exact ⟨by norm_num, by norm_num, by norm_num, by norm_num, by norm_num, prime_2621, prime_24809, prime_13331831⟩

theorem prime_22149492674086928081353 : Nat.Prime 22149492674086928081353 := by
  refine pratt _ 5 [2, 2, 2, 3, 5323, 173378833005251801] (by decide) (by decide +kernel) ?_ (by decide +kernel) (by decide +kernel) (by decide +kernel)
  simp only [List.forall_mem_cons, List.not_mem_nil, false_imp_iff, implies_true, and_true]
  exact ⟨by norm_num, by norm_num, by norm_num, by norm_num, prime_5323, prime_173378833005251801⟩

theorem prime_132896956044521568488119 : Nat.Prime 132896956044521568488119 := by
  refine pratt _ 6 [2, 3, 22149492674086928081353] (by decide) (by decide +kernel) ?_ (by decide +kernel) (by decide +kernel) (by decide +kernel)
  simp only [List.forall_mem_cons, List.not_mem_nil, false_imp_iff, implies_true, and_true]
  exact ⟨by norm_num, by norm_num, prime_22149492674086928081353⟩

theorem prime_271 : Nat.Prime 271 := by
  refine pratt _ 6 [2, 3, 3, 3, 5] (by decide) (by decide +kernel) ?_ (by decide +kernel) (by decide +kernel) (by decide +kernel)
  simp only [List.forall_mem_cons, List.not_mem_nil, false_imp_iff, implies_true, and_true]
  exact ⟨by norm_num, by norm_num, by norm_num, by norm_num, by norm_num⟩

theorem prime_1627 : Nat.Prime 1627 := by
  refine pratt _ 3 [2, 3, 271] (by decide) (by decide +kernel) ?_ (by decide +kernel) (by decide +kernel) (by decide +kernel)
  simp only [List.forall_mem_cons, List.not_mem_nil, false_imp_iff, implies_true, and_true]
  exact ⟨by norm_num, by norm_num, prime_271⟩

theorem prime_2657 : Nat.Prime 2657 := by
  refine pratt _ 3 [2, 2, 2, 2, 2, 83] (by decide) (by decide +kernel) ?_ (by decide +kernel) (by decide +kernel) (by decide +kernel)
  simp only [List.forall_mem_cons, List.not_mem_nil, false_imp_iff, implies_true, and_true]
  exact ⟨by norm_num, by norm_num, by norm_num, by norm_num, by norm_num, by norm_num⟩

theorem prime_4423 : Nat.Prime 4423 := by
  refine pratt _ 3 [2, 3, 11, 67] (by decide) (by decide +kernel) ?_ (by decide +kernel) (by decide +kernel) (by decide +kernel)
  simp only [List.forall_mem_cons, List.not_mem_nil, false_imp_iff, implies_true, and_true]
  exact ⟨by norm_num, by norm_num, by norm_num, by norm_num⟩

theorem prime_103 : Nat.Prime 103 := by
  refine pratt _ 5 [2, 3, 17] (by decide) (by decide +kernel) ?_ (by decide +kernel) (by decide +kernel) (by decide +kernel)
  simp only [List.forall_mem_cons, List.not_mem_nil, false_imp_iff, implies_true, and_true]
  exact ⟨by norm_num, by norm_num, by norm_num⟩

theorem prime_41201 : Nat.Prime 41201 := by
  refine pratt _ 3 [2, 2, 2, 2, 5, 5, 103] (by decide) (by decide +kernel) ?_ (by decide +kernel) (by decide +kernel) (by decide +kernel)
  simp only [List.forall_mem_cons, List.not_mem_nil, false_imp_iff, implies_true, and_true]
  exact ⟨by norm_num, by norm_num, by norm_num, by norm_num, by norm_num, by norm_num, prime_103⟩

theorem prime_101 : Nat.Prime 101 := by
  refine pratt _ 2 [2, 2, 5, 5] (by decide) (by decide +kernel) ?_ (by decide +kernel) (by decide +kernel) (by decide +kernel)
  simp only [List.forall_mem_cons, List.not_mem_nil, false_imp_iff, implies_true, and_true]
  exact ⟨by norm_num, by norm_num, by norm_num, by norm_num⟩

theorem prime_239 : Nat.Prime 239 := by
  refine pratt _ 7 [2, 7, 17] (by decide) (by decide +kernel) ?_ (by decide +kernel) (by decide +kernel) (by decide +kernel)
  simp only [List.forall_mem_cons, List.not_mem_nil, false_imp_iff, implies_true, and_true]
  exact ⟨by norm_num, by norm_num, by norm_num⟩

theorem prime_96557 : Nat.Prime 96557 := by
  refine pratt _ 2 [2, 2, 101, 239] (by decide) (by decide +kernel) ?_ (by decide +kernel) (by decide +kernel) (by decide +kernel)
  simp only [List.forall_mem_cons, List.not_mem_nil, false_imp_iff, implies_true, and_true]
  exact ⟨by norm_num, by norm_num, prime_101, prime_239⟩

theorem prime_419 : Nat.Prime 419 := by
  refine pratt _ 2 [2, 11, 19] (by decide) (by decide +kernel) ?_ (by decide +kernel) (by decide +kernel) (by decide +kernel)
  simp only [List.forall_mem_cons, List.not_mem_nil, false_imp_iff, implies_true, and_true]
  exact ⟨by norm_num, by norm_num, by norm_num⟩

theorem prime_20113 : Nat.Prime 20113 := by
  refine pratt _ 10 [2, 2, 2, 2, 3, 419] (by decide) (by decide +kernel) ?_ (by decide +kernel) (by decide +kernel) (by decide +kernel)
  simp only [List.forall_mem_cons, List.not_mem_nil, false_imp_iff, implies_true, and_true]
  exact ⟨by norm_num, by norm_num, by norm_num, by norm_num, by norm_num, prime_419⟩

theorem prime_1206781 : Nat.Prime 1206781 := by
  refine pratt _ 10 [2, 2, 3, 5, 20113] (by decide) (by decide +kernel) ?_ (by decide +kernel) (by decide +kernel) (by decide +kernel)
  simp only [List.forall_mem_cons, List.not_mem_nil, false_imp_iff, implies_true, and_true]
  exact ⟨by norm_num, by norm_num, by norm_num, by norm_num, prime_20113⟩

theorem prime_7240687 : Nat.Prime 7240687 := by
  refine pratt _ 3 [2, 3, 1206781] (by decide) (by decide +kernel) ?_ (by decide +kernel) (by decide +kernel) (by decide +kernel)
  simp only [List.forall_mem_cons, List.not_mem_nil, false_imp_iff, implies_true, and_true]
  exact ⟨by norm_num, by norm_num, prime_1206781⟩

theorem prime_107590001 : Nat.Prime 107590001 := by
  refine pratt _ 3 [2, 2, 2, 2, 5, 5, 5, 5, 7, 29, 53] (by decide) (by decide +kernel) ?_ (by decide +kernel) (by decide +kernel) (by decide +kernel)
  simp only [List.forall_mem_cons, List.not_mem_nil, false_imp_iff, implies_true, and_true]
  exact ⟨by norm_num, by norm_num, by norm_num, by norm_num, by norm_num, by norm_num, by norm_num, by norm_num, by norm_num, by norm_num, by norm_num⟩

theorem prime_255515944373312847190720520512484175977 : Nat.Prime 255515944373312847190720520512484175977 := by
  refine pratt _ 3 [2, 2, 2, 7, 7, 11, 1627, 2657, 4423, 41201, 96557, 7240687, 107590001] (by decide) (by decide +kernel) ?_ (by decide +kernel) (by decide +kernel) (by decide +kernel)
  simp only [List.forall_mem_cons, List.not_mem_nil, false_imp_iff, implies_true, and_true]
  exact ⟨by norm_num, by norm_num, by norm_num, by norm_num, by norm_num, by norm_num, prime_1627, prime_2657, prime_4423, prime_41201, prime_96557, prime_7240687, prime_107590001⟩

theorem prime_205115282021455665897114700593932402728804164701536103180137503955397371 : Nat.Prime 205115282021455665897114700593932402728804164701536103180137503955397371 := by
  refine pratt _ 10 [2, 3, 5, 29, 29, 31, 7723, 132896956044521568488119, 255515944373312847190720520512484175977] (by decide) (by decide +kernel) ?_ (by decide +kernel) (by decide +kernel) (by decide +kernel)
  simp only [List.forall_mem_cons, List.not_mem_nil, false_imp_iff, implies_true, and_true]
  exact ⟨by norm_num, by norm_num, by norm_num, by norm_num, by norm_num, by norm_num, prime_7723, prime_132896956044521568488119, prime_255515944373312847190720520512484175977⟩

theorem prime_115792089237316195423570985008687907853269984665640564039457584007908834671663 : Nat.Prime 115792089237316195423570985008687907853269984665640564039457584007908834671663 := by
  refine pratt _ 3 [2, 3, 7, 13441, 205115282021455665897114700593932402728804164701536103180137503955397371] (by decide) (by decide +kernel) ?_ (by decide +kernel) (by decide +kernel) (by decide +kernel)
  simp only [List.forall_mem_cons, List.not_mem_nil, false_imp_iff, implies_true, and_true]
  exact ⟨by norm_num, by norm_num, by norm_num, prime_13441, prime_205115282021455665897114700593932402728804164701536103180137503955397371⟩

end KC.Real.Secp256k1
