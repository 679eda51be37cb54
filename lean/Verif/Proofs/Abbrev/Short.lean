import Verif.Proofs.Abbrev
namespace KC.Abbrev
open KC.Bip39

theorem english : distinctMod 138616 (shortCodes 4 DictData.englishCodes) 0 = true := by decide +kernel
theorem french : distinctMod 124566 (shortCodes 4 DictData.frenchCodes) 0 = true := by decide +kernel
theorem italian : distinctMod 131159 (shortCodes 4 DictData.italianCodes) 0 = true := by decide +kernel
theorem spanish : distinctMod 136844 (shortCodes 4 DictData.spanishCodes) 0 = true := by decide +kernel
theorem japanese : distinctMod 133986 (shortCodes 3 DictData.japaneseCodes) 0 = true := by decide +kernel
theorem korean : distinctMod 183323 (shortCodes 5 DictData.koreanCodes) 0 = true := by decide +kernel
theorem chineseSimplified : distinctMod 60001 (shortCodes 1 DictData.chineseSimplifiedCodes) 0 = true := by decide +kernel
theorem chineseTraditional : distinctMod 60001 (shortCodes 1 DictData.chineseTraditionalCodes) 0 = true := by decide +kernel

end KC.Abbrev
