import Verif.Proofs.Dict
namespace KC.Bip39

theorem chineseTraditional_good : chineseTraditional.Good :=
  good_of_checks chineseTraditional DictData.chineseTraditionalCodes DictData.chineseTraditionalModulus rfl (by decide +kernel) (by decide +kernel)

end KC.Bip39
