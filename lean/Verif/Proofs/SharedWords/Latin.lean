import Verif.Proofs.SharedWords.Check
namespace KC.Bip39

theorem english_italian : disjointMod 436167 DictData.englishCodes DictData.italianCodes = true := by decide +kernel
theorem english_spanish : disjointMod 420117 DictData.englishCodes DictData.spanishCodes = true := by decide +kernel
theorem french_italian : disjointMod 448737 DictData.frenchCodes DictData.italianCodes = true := by decide +kernel
theorem french_spanish : disjointMod 453191 DictData.frenchCodes DictData.spanishCodes = true := by decide +kernel
theorem italian_spanish : disjointMod 373185 DictData.italianCodes DictData.spanishCodes = true := by decide +kernel

/-- Simplified Chinese words which differ from the Traditional Chinese word at their place are nowhere in the Traditional Chinese list. -/
theorem chinese_apart : disjointMod 150001
    (((DictData.chineseSimplifiedCodes.zip DictData.chineseTraditionalCodes).filter fun p => p.1 != p.2).map Prod.fst)
    DictData.chineseTraditionalCodes = true := by decide +kernel

/-- At no place do the English and the French list agree. -/
theorem english_french_differ :
    ((DictData.englishCodes.zip DictData.frenchCodes).all fun p => p.1 != p.2) = true := by decide +kernel

end KC.Bip39
