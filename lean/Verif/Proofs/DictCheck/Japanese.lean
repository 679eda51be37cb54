import Verif.Proofs.Dict
namespace KC.Bip39

theorem japanese_good : japanese.Good :=
  good_of_checks japanese DictData.japaneseCodes DictData.japaneseModulus rfl (by decide +kernel) (by decide +kernel)

end KC.Bip39
