import Verif.Proofs.Dict
namespace KC.Bip39

theorem chineseSimplified_good : chineseSimplified.Good :=
  good_of_checks chineseSimplified DictData.chineseSimplifiedCodes DictData.chineseSimplifiedModulus rfl (by decide +kernel) (by decide +kernel)

end KC.Bip39
