import Verif.Model.Bip39
/-
Model of the functions of bip39/src/bip39.rs that take a dictionary, for dictionaries of the caller ("This interface is exposed to allow
users to implement custom dictionaries", bip39.rs:847-848; one may also wrap a `DefaultDictionary`, 895-898).  `Verif.Model.Bip39` has them for the crate's own `DefaultDictionary`.
-/
namespace KC.Bip39

/-- bip39.rs:884-889, the trait `Language`: any implementation whose answers do not change.  A `MnemonicIndex` is its public `u16` (693), so
`lookup_mnemonic` may answer with any; both look-ups may also panic. -/
structure Lang where
  name : Str
  separator : Str
  lookupMnemonic : Str → Res DictError UInt16
  lookupWord : UInt16 → Res DictError Str

/-- bip39.rs:903-926 `impl Language for DefaultDictionary`. -/
def Dict.toLang (d : Dict) : Lang where
  name := d.name
  separator := [d.separator]
  lookupMnemonic := d.lookupMnemonic
  lookupWord m := Res.ofPanic (d.lookupWord m)

/-- `str::split` by a non-empty string: at each position, from the left, look for the separator and go on behind it.  `skip` characters of a
separator that was found are still to be passed over. -/
def splitFrom (sep : Str) (skip : Nat) : Str → List Str
  | [] => [[]]
  | c :: s =>
    if skip ≠ 0 then splitFrom sep (skip - 1) s
    else if sep.isPrefixOf (c :: s) then [] :: splitFrom sep (sep.length - 1) s
    else match splitFrom sep 0 s with
      | [] => [[c]]
      | h :: t => (c :: h) :: t

/-- `str::split` by a string.  The empty string is found before, between and behind all characters. -/
def splitBy (sep s : Str) : List Str :=
  if sep = [] then [] :: s.map (fun c => [c]) ++ [[]] else splitFrom sep 0 s

namespace Lang

/-- bip39.rs:748-754 `MnemonicIndex::from_word`. -/
def fromWord (L : Lang) (word : Str) : Res Error UInt16 := (L.lookupMnemonic word).mapErr .languageError

/-- bip39.rs:825-827, the loop of `from_string`. -/
def fromWords (L : Lang) : List Str → Res Error (List UInt16)
  | [] => .ok []
  | w :: ws => do
    let i ← L.fromWord w
    let is ← L.fromWords ws
    .ok (i :: is)

/-- bip39.rs:820-830 `Mnemonics::from_string`. -/
def fromString (L : Lang) (s : Str) : Res Error Mnemonics := do
  let v ← L.fromWords (splitBy L.separator s)
  Mnemonics.fromMnemonics v

/-- bip39.rs:732-737 `MnemonicIndex::to_word`; `none` = panic of `unwrap` or of the look-up. -/
def toWord (L : Lang) (m : UInt16) : Option Str :=
  match L.lookupWord m with
  | .ok w => some w
  | _ => none

/-- bip39.rs:800-807, the loop of `to_string`. -/
def toStringLoop (L : Lang) : List UInt16 → Bool → Option Str
  | [], _ => some []
  | m :: ms, first => do
    let w ← L.toWord m
    let t ← L.toStringLoop ms false
    some ((if first then [] else L.separator) ++ w ++ t)

/-- bip39.rs:794-809 `Mnemonics::to_string`; `none` = panic. -/
def toText (L : Lang) (m : Mnemonics) : Option Str := L.toStringLoop m.idx true

/-- bip39.rs:548-555 `MnemonicString::new`. -/
def mnemonicStringNew (L : Lang) (s : Str) : Res Error Str := do
  let _ ← L.fromString s
  .ok s

end Lang
end KC.Bip39
