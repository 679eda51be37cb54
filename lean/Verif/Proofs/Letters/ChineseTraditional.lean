import Verif.Proofs.Letters
namespace KC.Letters
open KC.Bip39

theorem chineseTraditional_ok : ∀ w ∈ chineseTraditional.words, ok false w = true := words_ok (codes := DictData.chineseTraditionalCodes) rfl (by decide +kernel)

end KC.Letters
