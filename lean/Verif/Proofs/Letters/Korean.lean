import Verif.Proofs.Letters
namespace KC.Letters
open KC.Bip39

theorem korean_ok : ∀ w ∈ korean.words, ok false w = true := words_ok (codes := DictData.koreanCodes) rfl (by decide +kernel)

end KC.Letters
