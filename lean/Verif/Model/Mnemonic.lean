import Verif.Model.Dictionaries
import Verif.Model.Rng
/-
Model of keychain/src/mnemonic.rs.
-/
namespace KC.Mnemonic
open KC.Bip39 (Dict Seed Mnemonics MType)

/-- keychain/src/mnemonic.rs:8-17 `Language`. -/
inductive Language where
  | english | french | japanese | korean | chineseSimplified | chineseTraditional | italian | spanish
deriving DecidableEq, Repr

/-- mnemonic.rs:20-31 `Language::to_dict`. -/
def Language.toDict : Language → Dict
  | .english => Bip39.english
  | .french => Bip39.french
  | .japanese => Bip39.japanese
  | .korean => Bip39.korean
  | .chineseSimplified => Bip39.chineseSimplified
  | .chineseTraditional => Bip39.chineseTraditional
  | .italian => Bip39.italian
  | .spanish => Bip39.spanish

/-- mnemonic.rs:40-48 `Error`. -/
inductive Error where
  | mnemonicToShort (count needed : Nat)
  | mnemonicToLong (count needed : Nat)
  | wrongNumberOfWords (n : Nat)
  | unsupportedWordFound (w : Str)
  | invalidEntropySize (n : Nat)
  | unknownError (e : Bip39.Error)
deriving DecidableEq, Repr

/-- mnemonic.rs:67-80 `From<bip39::Error>`. -/
def Error.ofBip39 : Bip39.Error → Error
  | .wrongNumberOfWords n => .wrongNumberOfWords n
  | .wrongKeySize n => .invalidEntropySize n
  | .languageError (.wordNotFound w) => .unsupportedWordFound w
  | e => .unknownError e

/-- mnemonic.rs:82-86 `generate_entropy`. -/
def generateEntropy (size : Nat) : RM Error Bytes := do
  let t ← RM.lift ((MType.fromEntropySize size).mapErr Error.ofBip39)
  let filled ← RM.fill (t.toKeySize / 8)
  let e ← RM.lift (Res.ofPanic (Bip39.Entropy.generate t filled))
  RM.lift (.ok e.bytes)

/-- mnemonic.rs:88-92 `mnemonic_from_entropy`. -/
def mnemonicFromEntropy (P : Hashes) (bytes : Bytes) (language : Language) : Res Error Str := do
  let ent ← (Bip39.Entropy.fromSlice bytes).mapErr Error.ofBip39
  let m ← Res.ofPanic (ent.toMnemonics P)
  Res.ofPanic (m.toText language.toDict)

/-- mnemonic.rs:94-109 `seed_from_mnemonic` (`Res.panic` also stands for undefined behaviour of the word lookup). -/
def seedFromMnemonic (P : Hashes) (mnemonic unique : Str) (size : Nat) (language : Language) : Res Error Bytes := do
  let mnemonics ← (Mnemonics.fromString language.toDict mnemonic).mapErr Error.ofBip39
  let sizeWords := size / 32 * 3
  let t ← Res.ofPanic mnemonics.getType
  let wordsCount := t.mnemonicCount
  if sizeWords > wordsCount then .err (.mnemonicToShort wordsCount sizeWords)
  else if sizeWords < wordsCount then .err (.mnemonicToLong wordsCount sizeWords)
  else do
    let text ← Res.ofPanic (mnemonics.toText language.toDict)
    .ok (Seed.fromMnemonicString P text (Str.utf8 unique)).val

end KC.Mnemonic
