import Verif.Model.Json
import Verif.Model.Base64
import Verif.Model.NMap
/-
Model of keychain/src/data.rs, with the code `serde_derive` 1.0.94, `serde_repr` 0.1.4 and `base64-serde` 0.3.2 generate for it.
`none` = a `serde_json` error.
-/
namespace KC.Data
open KC.Json (Json)
open KC.Mnemonic (Language)

/-- keychain/src/data.rs:9-14 `Version`. -/
inductive Version where
  | v1
  | v2
deriving DecidableEq, Repr

/-- data.rs:9-14: the discriminants. -/
def Version.toNat : Version → Nat
  | .v1 => 1
  | .v2 => 2

/-- data.rs:16-20 `WalletDataV1`. -/
structure WalletV1 where
  keys : NMap Bytes

/-- data.rs:22-30 `WalletDataV2`. -/
structure WalletV2 where
  seed : Option Bytes
  mnemonic : Option Str
  dictionary : Option Language
  keys : NMap Bytes

/-- data.rs:33-35 `from_v1`. -/
def WalletV2.fromV1 (v1 : WalletV1) : WalletV2 := ⟨none, none, none, v1.keys⟩

/-- data.rs:38-43 `VersionedData`. -/
structure Versioned where
  version : Version
  data : Bytes

/-- mnemonic.rs:7-17: variant names, as `derive(Serialize, Deserialize)` uses them. -/
def languageName : Language → Str
  | .english => "English".toList
  | .french => "French".toList
  | .japanese => "Japanese".toList
  | .korean => "Korean".toList
  | .chineseSimplified => "ChineseSimplified".toList
  | .chineseTraditional => "ChineseTraditional".toList
  | .italian => "Italian".toList
  | .spanish => "Spanish".toList

/-- The variants in order. -/
def languages : List Language :=
  [.english, .french, .japanese, .korean, .chineseSimplified, .chineseTraditional, .italian, .spanish]

/-! ### Writing -/

/-- `SeVecWrapper` (data.rs:77-78): Base64 text. -/
def writeBytes (b : Bytes) : Bytes := Json.writeStr (Base64.encode b)

/-- data.rs:95-100 `se_key_map`: a sequence of pairs, in the map's order of the moment. -/
def writeKeys (it : Iter (Network × Bytes)) (keys : NMap Bytes) : Bytes :=
  Json.writeArr ((it.order keys.entries).map fun e => Json.writeArr [Json.writeNat e.1.toNat, writeBytes e.2])

/-- `Serialize` of an `Option`. -/
def writeOpt {α : Type} (f : α → Bytes) : Option α → Bytes
  | none => Json.writeNull
  | some a => f a

/-- `serde_json::to_vec(v2)` with the derived `Serialize` of data.rs:22-30 (`se_opt_vec` is data.rs:83-87). -/
def WalletV2.toVec (it : Iter (Network × Bytes)) (d : WalletV2) : Bytes :=
  Json.writeObj [
    ("seed".toList, writeOpt writeBytes d.seed),
    ("mnemonic".toList, writeOpt Json.writeStr d.mnemonic),
    ("dictionary".toList, writeOpt (fun l => Json.writeStr (languageName l)) d.dictionary),
    ("keys".toList, writeKeys it d.keys)]

/-- data.rs:46-48 `VersionedData::new` (writing to memory never fails). -/
def Versioned.new (it : Iter (Network × Bytes)) (d : WalletV2) : Versioned := ⟨.v2, d.toVec it⟩

/-- data.rs:54-56 `to_bytes`. -/
def Versioned.toBytes (v : Versioned) : Bytes :=
  Json.writeObj [("version".toList, Json.writeNat v.version.toNat), ("data".toList, writeBytes v.data)]

/-! ### Reading -/

/-- What the derived visitor finds for each of its fields: an object gives named fields at most once each, in any order, among
unknown ones, which are skipped; an array gives all of them in order and nothing more.  A key that is not Unicode text is an
error. -/
def fields (names : List Str) : Json → Option (List (Option Json))
  | .arr l => if l.length = names.length then some (l.map some) else none
  | .obj l =>
    if l.any fun m => m.1.isNone then none
    else names.mapM fun n =>
      match l.filter fun m => m.1 = some n with
      | [] => some none
      | [m] => some (some m.2)
      | _ => none
  | _ => none

/-- A required field. -/
def required {α : Type} (f : Json → Option α) : Option Json → Option α
  | some j => f j
  | none => none

/-- A field of type `Option<_>` without `deserialize_with`: absent means `None`. -/
def optional {α : Type} (f : Json → Option α) : Option Json → Option (Option α)
  | some .null => some none
  | some j => (f j).map some
  | none => some none

/-- `String`. -/
def readStr : Json → Option Str
  | .str s => s
  | _ => none

/-- `DeVecWrapper` (data.rs:80-81): Base64 text. -/
def readBytes (D : Base64.Decoder) (j : Json) : Option Bytes := (readStr j).bind D.decode

/-- data.rs:89-93 `de_opt_vec`. -/
def readOptBytes (D : Base64.Decoder) : Json → Option (Option Bytes)
  | .null => some none
  | j => (readBytes D j).map some

/-- An unsigned integer with the given largest value. -/
def readUInt (max : Nat) : Json → Option Nat
  | .int i => if 0 ≤ i ∧ i ≤ max then some i.toNat else none
  | _ => none

/-- The variant of that name. -/
def languageOf (s : Str) : Option Language := languages.find? fun l => languageName l = s

/-- The derived `Deserialize` of `Language`: `"English"`, or `{"English": null}`. -/
def readLanguage : Json → Option Language
  | .str s => s.bind languageOf
  | .obj [(s, .null)] => s.bind languageOf
  | _ => none

/-- `(Network, DeVecWrapper)`. -/
def readKey (D : Base64.Decoder) : Json → Option (Network × Bytes)
  | .arr [n, k] => do
    let n ← readUInt 4294967295 n
    let k ← readBytes D k
    return (UInt32.ofNat n, k)
  | _ => none

/-- data.rs:102-110 `de_key_map`. -/
def readKeys (D : Base64.Decoder) : Json → Option (NMap Bytes)
  | .arr l => (l.mapM (readKey D)).map NMap.ofList
  | _ => none

/-- Derived `Deserialize` of `WalletDataV1` (data.rs:16-20). -/
def readV1 (D : Base64.Decoder) (j : Json) : Option WalletV1 := do
  match ← fields ["keys".toList] j with
  | [k] => do
    let keys ← required (readKeys D) k
    return ⟨keys⟩
  | _ => none

/-- Derived `Deserialize` of `WalletDataV2` (data.rs:22-30). -/
def readV2 (D : Base64.Decoder) (j : Json) : Option WalletV2 := do
  match ← fields ["seed".toList, "mnemonic".toList, "dictionary".toList, "keys".toList] j with
  | [s, m, d, k] => do
    let seed ← required (readOptBytes D) s
    let mnemonic ← optional readStr m
    let dictionary ← optional readLanguage d
    let keys ← required (readKeys D) k
    return ⟨seed, mnemonic, dictionary, keys⟩
  | _ => none

/-- `Deserialize_repr` of `Version` (data.rs:9-14): a `u16` that is one of the discriminants. -/
def readVersion (j : Json) : Option Version := do
  let n ← readUInt 65535 j
  if n = 1 then return .v1 else if n = 2 then return .v2 else none

/-- data.rs:50-52 `from_bytes`, with the derived `Deserialize` of data.rs:38-43. -/
def Versioned.fromBytes (D : Base64.Decoder) (b : Bytes) : Option Versioned := do
  let j ← Json.parse b
  match ← fields ["version".toList, "data".toList] j with
  | [v, d] => do
    let version ← required readVersion v
    let data ← required (readBytes D) d
    return ⟨version, data⟩
  | _ => none

/-- data.rs:58-66 `get_data`. -/
def Versioned.getData (D : Base64.Decoder) (v : Versioned) : Option WalletV2 :=
  match v.version with
  | .v1 => ((Json.parse v.data).bind (readV1 D)).map WalletV2.fromV1
  | .v2 => (Json.parse v.data).bind (readV2 D)

end KC.Data
