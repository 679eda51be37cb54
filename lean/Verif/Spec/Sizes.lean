import Mathlib.Data.Nat.Log
import Verif.Spec.Wallet
/-
How long encrypted wallets are, in terms of what they hold.
-/
namespace KC.Spec.Sizes
open KC.Mnemonic (Language)

/-- The length of `n` bytes in Base64. -/
def base64 (n : Nat) : Nat := 4 * ((n + 2) / 3)

/-- The number of decimal digits. -/
def decimal (n : Nat) : Nat := Nat.log 10 n + 1

/-- The length of `[number,"key"]` for each key of the given length, in brackets and with commas between them. -/
def keys (l : List (Network × Nat)) : Nat :=
  2 + (l.map fun k => decimal k.1.toNat + base64 k.2 + "[,\"\"]".length).sum + (l.length - 1)

/-- The length of an encrypted wallet whose inner document has `n` bytes: salt, nonce, tag and the document with its version. -/
def wallet (n : Nat) : Nat := 32 + 12 + 16 + ("{\"version\":2,\"data\":\"\"}".length + base64 n)

/-- A wallet made from a seed. -/
def ofSeed (l : List (Network × Nat)) : Nat :=
  wallet ("{\"seed\":\"\",\"mnemonic\":null,\"dictionary\":null,\"keys\":}".length + base64 64 + keys l)

/-- A wallet made from a phrase of `n` bytes of UTF-8 in a language whose name has `m` letters. -/
def ofPhrase (n m : Nat) (l : List (Network × Nat)) : Nat :=
  wallet ("{\"seed\":null,\"mnemonic\":\"\",\"dictionary\":\"\",\"keys\":}".length + n + m + keys l)

/-- The letters of the name of a language in wallets. -/
def name : Language → Nat
  | .english => 7
  | .french => 6
  | .japanese => 8
  | .korean => 6
  | .chineseSimplified => 17
  | .chineseTraditional => 18
  | .italian => 7
  | .spanish => 7

end KC.Spec.Sizes
