import Verif.Proofs.Abbrev
namespace KC.Abbrev
open KC.Bip39

theorem french_hole0 : distinctMod 241973 (holes 0 DictData.frenchCodes) 0 = true := by decide +kernel
theorem french_hole1 : distinctMod 213236 (holes 1 DictData.frenchCodes) 0 = true := by decide +kernel
theorem french_hole2 : distinctMod 181591 (holes 2 DictData.frenchCodes) 0 = true := by decide +kernel
theorem french_hole3 : distinctMod 227215 (holes 3 DictData.frenchCodes) 0 = true := by decide +kernel
theorem french_hole4 : distinctMod 187535 (holes 4 DictData.frenchCodes) 0 = true := by decide +kernel
theorem french_hole5 : distinctMod 222732 (holes 5 DictData.frenchCodes) 0 = true := by decide +kernel
theorem french_hole6 : distinctMod 209762 (holes 6 DictData.frenchCodes) 0 = true := by decide +kernel
theorem french_hole7 : distinctMod 181030 (holes 7 DictData.frenchCodes) 0 = true := by decide +kernel
theorem french_hole8 : distinctMod 190793 (holes 8 DictData.frenchCodes) 0 = true := by decide +kernel
theorem french_hole9 : distinctMod 208188 (holes 9 DictData.frenchCodes) 0 = true := by decide +kernel
theorem french_within : within 10 DictData.frenchCodes = true := by decide +kernel

theorem french_holes (i : Nat) (h : i < 10) : ∃ m, distinctMod m (holes i DictData.frenchCodes) 0 = true := by
  have : i = 0 ∨ i = 1 ∨ i = 2 ∨ i = 3 ∨ i = 4 ∨ i = 5 ∨ i = 6 ∨ i = 7 ∨ i = 8 ∨ i = 9 := by omega
  rcases this with rfl | rfl | rfl | rfl | rfl | rfl | rfl | rfl | rfl | rfl
  · exact ⟨_, french_hole0⟩
  · exact ⟨_, french_hole1⟩
  · exact ⟨_, french_hole2⟩
  · exact ⟨_, french_hole3⟩
  · exact ⟨_, french_hole4⟩
  · exact ⟨_, french_hole5⟩
  · exact ⟨_, french_hole6⟩
  · exact ⟨_, french_hole7⟩
  · exact ⟨_, french_hole8⟩
  · exact ⟨_, french_hole9⟩

end KC.Abbrev
