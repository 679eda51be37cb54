import Verif.Proofs.Abbrev
namespace KC.Abbrev
open KC.Bip39

theorem french_free : free 4 DictData.frenchCodes = true := by decide +kernel
theorem italian_free : free 4 DictData.italianCodes = true := by decide +kernel
theorem japanese_free : free 3 DictData.japaneseCodes = true := by decide +kernel
theorem korean_free : free 5 DictData.koreanCodes = true := by decide +kernel
theorem chineseSimplified_free : free 1 DictData.chineseSimplifiedCodes = true := by decide +kernel
theorem chineseTraditional_free : free 1 DictData.chineseTraditionalCodes = true := by decide +kernel

end KC.Abbrev
