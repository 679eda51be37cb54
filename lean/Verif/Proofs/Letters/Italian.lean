import Verif.Proofs.Letters
namespace KC.Letters
open KC.Bip39

theorem italian_ok : ∀ w ∈ italian.words, ok false w = true := words_ok (codes := DictData.italianCodes) rfl (by decide +kernel)

end KC.Letters
