import Verif.Proofs.Letters
namespace KC.Letters
open KC.Bip39

theorem chineseSimplified_ok : ∀ w ∈ chineseSimplified.words, ok false w = true := words_ok (codes := DictData.chineseSimplifiedCodes) rfl (by decide +kernel)

end KC.Letters
