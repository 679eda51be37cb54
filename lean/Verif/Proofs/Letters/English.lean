import Verif.Proofs.Letters
namespace KC.Letters
open KC.Bip39

theorem english_ok : ∀ w ∈ english.words, ok false w = true := words_ok (codes := DictData.englishCodes) rfl (by decide +kernel)

end KC.Letters
