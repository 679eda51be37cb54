import Verif.Proofs.Dict
namespace KC.Bip39

theorem korean_good : korean.Good :=
  good_of_checks korean DictData.koreanCodes DictData.koreanModulus rfl (by decide +kernel) (by decide +kernel)

end KC.Bip39
