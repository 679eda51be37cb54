import Verif.Spec.Bip39
import Verif.Model.Mnemonic
/-
Abbreviations of the words of a phrase.
-/
namespace KC.Spec.Abbrev
open KC.Mnemonic (Language)

/-- A mark on the letter before it: the Latin accents of the word lists, and the two marks of Kana. -/
def isMark (c : Char) : Bool := (0x300 ≤ c.toNat && c.toNat ≤ 0x36f) || (0x3099 ≤ c.toNat && c.toNat ≤ 0x309a)

/-- The letters of a word without marks. -/
def letters (w : Str) : Str := w.filter fun c => !isMark c

/-- The first `k` of them. -/
def short (k : Nat) (w : Str) : Str := (letters w).take k

/-- How many are enough. -/
def enough : Language → Nat
  | .english | .french | .italian | .spanish => 4
  | .japanese => 3
  | .korean => 5
  | .chineseSimplified | .chineseTraditional => 1

end KC.Spec.Abbrev
