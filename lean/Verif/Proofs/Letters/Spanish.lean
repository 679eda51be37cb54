import Verif.Proofs.Letters
namespace KC.Letters
open KC.Bip39

theorem spanish_ok : ∀ w ∈ spanish.words, ok false w = true := words_ok (codes := DictData.spanishCodes) rfl (by decide +kernel)

end KC.Letters
