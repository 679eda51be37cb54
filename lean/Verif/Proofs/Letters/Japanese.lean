import Verif.Proofs.Letters
namespace KC.Letters
open KC.Bip39

theorem japanese_ok : ∀ w ∈ japanese.words, ok false w = true := words_ok (codes := DictData.japaneseCodes) rfl (by decide +kernel)

end KC.Letters
