import Verif.Proofs.Dict
namespace KC.Bip39

theorem english_good : english.Good :=
  good_of_checks english DictData.englishCodes DictData.englishModulus rfl (by decide +kernel) (by decide +kernel)

end KC.Bip39
