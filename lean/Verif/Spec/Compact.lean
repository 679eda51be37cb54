import Verif.Spec.Data
/-
The text in which wallets are written, character by character.
-/
namespace KC.Spec.Compact
open KC.Mnemonic (Language)

/-- A character inside quotation marks: the quotation mark, the backslash and the control characters are escaped, the latter by
their letter if they have one (b, t, n, f, r), else by their number in four hexadecimal digits. -/
def escaped (c : Char) : Str :=
  if c = '"' then ['\\', '"']
  else if c = '\\' then ['\\', '\\']
  else if c.toNat = 8 then ['\\', 'b']
  else if c.toNat = 9 then ['\\', 't']
  else if c.toNat = 10 then ['\\', 'n']
  else if c.toNat = 12 then ['\\', 'f']
  else if c.toNat = 13 then ['\\', 'r']
  else if c.toNat < 32 then ['\\', 'u', '0', '0', Nat.digitChar (c.toNat / 16), Nat.digitChar (c.toNat % 16)]
  else [c]

/-- Text in quotation marks. -/
def quoted (s : Str) : Str := ['"'] ++ s.flatMap escaped ++ ['"']

/-- A value or `null`. -/
def orNull {α : Type} (f : α → Str) : Option α → Str
  | none => "null".toList
  | some a => f a

/-- Bytes in Base64. -/
def bytes (b : Bytes) : Str := ['"'] ++ Spec.Base64.text b ++ ['"']

/-- A network with its key. -/
def key (e : Network × Bytes) : Str := ['['] ++ Nat.toDigits 10 e.1.toNat ++ [','] ++ bytes e.2 ++ [']']

/-- The fields of a wallet. -/
def content (seed : Option Bytes) (phrase : Option Str) (language : Option Language) (keys : List (Network × Bytes)) : Str :=
  "{\"seed\":".toList ++ orNull bytes seed ++ ",\"mnemonic\":".toList ++ orNull quoted phrase ++ ",\"dictionary\":".toList ++
    orNull (fun l => ['"'] ++ (Data.langName l).toList ++ ['"']) language ++ ",\"keys\":[".toList ++
    List.intercalate [','] (keys.map key) ++ "]}".toList

/-- The whole text. -/
def file (seed : Option Bytes) (phrase : Option Str) (language : Option Language) (keys : List (Network × Bytes)) : Str :=
  "{\"version\":2,\"data\":".toList ++ bytes (Str.utf8 (content seed phrase language keys)) ++ ['}']

end KC.Spec.Compact
