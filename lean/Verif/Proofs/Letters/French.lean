import Verif.Proofs.Letters
namespace KC.Letters
open KC.Bip39

theorem french_ok : ∀ w ∈ french.words, ok false w = true := words_ok (codes := DictData.frenchCodes) rfl (by decide +kernel)

end KC.Letters
