import Verif.Model.Mnemonic
import Verif.Proofs.DictCheck.English
import Verif.Proofs.DictCheck.French
import Verif.Proofs.DictCheck.Japanese
import Verif.Proofs.DictCheck.Korean
import Verif.Proofs.DictCheck.ChineseSimplified
import Verif.Proofs.DictCheck.ChineseTraditional
import Verif.Proofs.DictCheck.Italian
import Verif.Proofs.DictCheck.Spanish
namespace KC.Mnemonic
open KC.Bip39

theorem Language.good (l : Language) : l.toDict.Good := by
  cases l
  · exact english_good
  · exact french_good
  · exact japanese_good
  · exact korean_good
  · exact chineseSimplified_good
  · exact chineseTraditional_good
  · exact italian_good
  · exact spanish_good

end KC.Mnemonic
