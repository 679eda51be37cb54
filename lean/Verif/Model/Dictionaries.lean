import Verif.Model.Bip39
import Verif.Model.Dict.English
import Verif.Model.Dict.French
import Verif.Model.Dict.Japanese
import Verif.Model.Dict.Korean
import Verif.Model.Dict.ChineseSimplified
import Verif.Model.Dict.ChineseTraditional
import Verif.Model.Dict.Italian
import Verif.Model.Dict.Spanish
/-
The eight dictionaries of bip39/src/bip39.rs:928-977.
-/
namespace KC.Bip39

/-- The word with the given number (see `Verif/Model/Dict/*`): base 2^21 digits, least significant first, are the code
points.  The first argument bounds the length of the word. -/
def decodeWord : Nat → Nat → Str
  | 0, _ => []
  | f + 1, n => if n = 0 then [] else Char.ofNat (n % 2097152) :: decodeWord f (n / 2097152)

/-- The words of a dictionary given by their numbers. -/
def decodeWords (codes : List Nat) : List Str := codes.map (decodeWord 16)

/-- bip39.rs:931-932. -/
def english : Dict where
  words := decodeWords DictData.englishCodes
  len := by rw [decodeWords, List.length_map]; decide +kernel
  name := ['e', 'n', 'g', 'l', 'i', 's', 'h']

/-- bip39.rs:937-938. -/
def french : Dict where
  words := decodeWords DictData.frenchCodes
  len := by rw [decodeWords, List.length_map]; decide +kernel
  name := ['f', 'r', 'e', 'n', 'c', 'h']

/-- bip39.rs:943-944. -/
def japanese : Dict where
  words := decodeWords DictData.japaneseCodes
  len := by rw [decodeWords, List.length_map]; decide +kernel
  name := ['j', 'a', 'p', 'a', 'n', 'e', 's', 'e']

/-- bip39.rs:949-950. -/
def korean : Dict where
  words := decodeWords DictData.koreanCodes
  len := by rw [decodeWords, List.length_map]; decide +kernel
  name := ['k', 'o', 'r', 'e', 'a', 'n']

/-- bip39.rs:955-958. -/
def chineseSimplified : Dict where
  words := decodeWords DictData.chineseSimplifiedCodes
  len := by rw [decodeWords, List.length_map]; decide +kernel
  name := ['c', 'h', 'i', 'n', 'e', 's', 'e', '-', 's', 'i', 'm', 'p', 'l', 'i', 'f', 'i', 'e', 'd']

/-- bip39.rs:962-965. -/
def chineseTraditional : Dict where
  words := decodeWords DictData.chineseTraditionalCodes
  len := by rw [decodeWords, List.length_map]; decide +kernel
  name := ['c', 'h', 'i', 'n', 'e', 's', 'e', '-', 't', 'r', 'a', 'd', 'i', 't', 'i', 'o', 'n', 'a', 'l']

/-- bip39.rs:970-971. -/
def italian : Dict where
  words := decodeWords DictData.italianCodes
  len := by rw [decodeWords, List.length_map]; decide +kernel
  name := ['i', 't', 'a', 'l', 'i', 'a', 'n']

/-- bip39.rs:976-977. -/
def spanish : Dict where
  words := decodeWords DictData.spanishCodes
  len := by rw [decodeWords, List.length_map]; decide +kernel
  name := ['s', 'p', 'a', 'n', 'i', 's', 'h']

end KC.Bip39
