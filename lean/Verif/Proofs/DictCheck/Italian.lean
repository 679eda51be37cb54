import Verif.Proofs.Dict
namespace KC.Bip39

theorem italian_good : italian.Good :=
  good_of_checks italian DictData.italianCodes DictData.italianModulus rfl (by decide +kernel) (by decide +kernel)

end KC.Bip39
