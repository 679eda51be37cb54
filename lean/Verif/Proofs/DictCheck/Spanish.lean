import Verif.Proofs.Dict
namespace KC.Bip39

theorem spanish_good : spanish.Good :=
  good_of_checks spanish DictData.spanishCodes DictData.spanishModulus rfl (by decide +kernel) (by decide +kernel)

end KC.Bip39
