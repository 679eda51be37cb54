import Verif.Proofs.Abbrev
namespace KC.Abbrev
open KC.Bip39

theorem italian_hole0 : distinctMod 234983 (holes 0 DictData.italianCodes) 0 = true := by decide +kernel
theorem italian_hole1 : distinctMod 204533 (holes 1 DictData.italianCodes) 0 = true := by decide +kernel
theorem italian_hole2 : distinctMod 135633 (holes 2 DictData.italianCodes) 0 = true := by decide +kernel
theorem italian_hole3 : distinctMod 177443 (holes 3 DictData.italianCodes) 0 = true := by decide +kernel
theorem italian_hole4 : distinctMod 224183 (holes 4 DictData.italianCodes) 0 = true := by decide +kernel
theorem italian_hole5 : distinctMod 222281 (holes 5 DictData.italianCodes) 0 = true := by decide +kernel
theorem italian_hole6 : distinctMod 231901 (holes 6 DictData.italianCodes) 0 = true := by decide +kernel
theorem italian_hole7 : distinctMod 231435 (holes 7 DictData.italianCodes) 0 = true := by decide +kernel
theorem italian_hole8 : distinctMod 239779 (holes 8 DictData.italianCodes) 0 = true := by decide +kernel
theorem italian_within : within 9 DictData.italianCodes = true := by decide +kernel

theorem italian_holes (i : Nat) (h : i < 9) : ∃ m, distinctMod m (holes i DictData.italianCodes) 0 = true := by
  have : i = 0 ∨ i = 1 ∨ i = 2 ∨ i = 3 ∨ i = 4 ∨ i = 5 ∨ i = 6 ∨ i = 7 ∨ i = 8 := by omega
  rcases this with rfl | rfl | rfl | rfl | rfl | rfl | rfl | rfl | rfl
  · exact ⟨_, italian_hole0⟩
  · exact ⟨_, italian_hole1⟩
  · exact ⟨_, italian_hole2⟩
  · exact ⟨_, italian_hole3⟩
  · exact ⟨_, italian_hole4⟩
  · exact ⟨_, italian_hole5⟩
  · exact ⟨_, italian_hole6⟩
  · exact ⟨_, italian_hole7⟩
  · exact ⟨_, italian_hole8⟩

end KC.Abbrev
