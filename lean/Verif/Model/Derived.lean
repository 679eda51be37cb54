import Verif.Model.Bip39
import Verif.Model.Hex
import Verif.Model.Data
/-
What `derive` generates for the types of bip39: `Serialize` and `Deserialize` (feature `generic-serialization` of bip39/Cargo.toml, `serde_derive`
1.0.94), here with the text form of `serde_json` 1.0.40, and `Ord`.  `none` = a `serde_json` error.
-/
namespace KC.Derived
open KC.Bip39
open KC.Json (Json)

/-! ### Text forms -/

/-- bip39.rs:584-592: variant names of `Type`. -/
def typeName : MType → Str
  | .w9 => "Type9Words".toList
  | .w12 => "Type12Words".toList
  | .w15 => "Type15Words".toList
  | .w18 => "Type18Words".toList
  | .w21 => "Type21Words".toList
  | .w24 => "Type24Words".toList

/-- bip39.rs:585-592: the variants in order. -/
def types : List MType := [.w9, .w12, .w15, .w18, .w21, .w24]

/-- bip39.rs:584: `Serialize` of `Type`. -/
def writeType (t : MType) : Bytes := Json.writeStr (typeName t)

/-- The variant of that name. -/
def typeOf (s : Str) : Option MType := types.find? fun t => typeName t = s

/-- `Deserialize` of `Type` from a tree: the name, or an object of one member with the name and `null`. -/
def typeOfTree : Json → Option MType
  | .str s => s.bind typeOf
  | .obj [(s, .null)] => s.bind typeOf
  | _ => none

/-- bip39.rs:584: `Deserialize` of `Type`. -/
def readType (b : Bytes) : Option MType := (Json.parse b).bind typeOfTree

/-- bip39.rs:525-526: `Serialize` of `MnemonicString`, a newtype: that of its text. -/
def writeString (s : Str) : Bytes := Json.writeStr s

/-- bip39.rs:525-526: `Deserialize` of `MnemonicString`, a newtype: that of its text.  `MnemonicString::new` is not called. -/
def readString (b : Bytes) : Option Str := (Json.parse b).bind Data.readStr

/-- bip39.rs:863-866: the variant name of `dictionary::Error`. -/
def dictErrorName : Str := "MnemonicWordNotFoundInDictionary".toList

/-- bip39.rs:862: `Serialize` of `dictionary::Error`: an object of one member. -/
def writeDictError : DictError → Bytes
  | .wordNotFound w => Json.writeObj [(dictErrorName, Json.writeStr w)]

/-- `Deserialize` of `dictionary::Error` from a tree. -/
def dictErrorOfTree : Json → Option DictError
  | .obj [(s, j)] => if s = some dictErrorName then (Data.readStr j).map .wordNotFound else none
  | _ => none

/-- bip39.rs:862: `Deserialize` of `dictionary::Error`. -/
def readDictError (b : Bytes) : Option DictError := (Json.parse b).bind dictErrorOfTree

/-- hex.rs:20-24: the variant name of `Error`. -/
def hexErrorName : Str := "UnknownSymbol".toList

/-- hex.rs:19: `Serialize` of `Error`. -/
def writeHexError : Hex.Error → Bytes
  | .unknownSymbol i => Json.writeObj [(hexErrorName, Json.writeNat i)]

/-- `Deserialize` of `Error` of hex.rs from a tree; `usize` has 64 bits. -/
def hexErrorOfTree : Json → Option Hex.Error
  | .obj [(s, j)] => if s = some hexErrorName then (Data.readUInt 18446744073709551615 j).map .unknownSymbol else none
  | _ => none

/-- hex.rs:19: `Deserialize` of `Error`. -/
def readHexError (b : Bytes) : Option Hex.Error := (Json.parse b).bind hexErrorOfTree

/-! ### Orders -/

/-- `Ord` of numbers. -/
def cmpNat (a b : Nat) : Ordering := if a < b then .lt else if a = b then .eq else .gt

/-- `Ord` of slices and arrays of bytes: the first difference decides, else the length. -/
def cmpBytes : Bytes → Bytes → Ordering
  | [], [] => .eq
  | [], _ :: _ => .lt
  | _ :: _, [] => .gt
  | a :: x, b :: y => (cmpNat a.toNat b.toNat).then (cmpBytes x y)

/-- `Ord` of strings: that of their UTF-8 bytes. -/
def cmpText (a b : Str) : Ordering := cmpBytes (Str.utf8 a) (Str.utf8 b)

/-- bip39.rs:585-592: place of a variant of `Type`. -/
def typePlace : MType → Nat
  | .w9 => 0 | .w12 => 1 | .w15 => 2 | .w18 => 3 | .w21 => 4 | .w24 => 5

/-- bip39.rs:583: `Ord` of `Type`. -/
def cmpType (a b : MType) : Ordering := cmpNat (typePlace a) (typePlace b)

/-- bip39.rs:128-136: `Ord` of `Entropy`: the variants in order, then their arrays. -/
def cmpEntropy (a b : Entropy) : Ordering := (cmpNat (typePlace a.ty) (typePlace b.ty)).then (cmpBytes a.bytes b.bytes)

/-- bip39.rs:524-526: `Ord` of `MnemonicString`. -/
def cmpString (a b : Str) : Ordering := cmpText a b

/-- bip39.rs:692-693: `Ord` of `MnemonicIndex`. -/
def cmpIndex (a b : UInt16) : Ordering := cmpNat a.toNat b.toNat

/-- bip39.rs:861-866: `Ord` of `dictionary::Error`. -/
def cmpDictError : DictError → DictError → Ordering
  | .wordNotFound a, .wordNotFound b => cmpText a b

/-- hex.rs:18-24: `Ord` of `Error`. -/
def cmpHexError : Hex.Error → Hex.Error → Ordering
  | .unknownSymbol a, .unknownSymbol b => cmpNat a b

end KC.Derived
