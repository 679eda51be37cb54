import Verif.Proofs.Dict
namespace KC.Bip39

theorem french_good : french.Good :=
  good_of_checks french DictData.frenchCodes DictData.frenchModulus rfl (by decide +kernel) (by decide +kernel)

end KC.Bip39
