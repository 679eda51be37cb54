import Verif.Spec.Json
import Verif.Spec.Base64
import Verif.Model.Base64
import Verif.Model.Keys
/-
The stored forms of a wallet.
-/
namespace KC.Spec.Data
open KC.Json (Json)
open KC.Spec.Json
open KC.Mnemonic (Language)

/-- Name of a language in stored data. -/
def langName : Language → String
  | .english => "English"
  | .french => "French"
  | .japanese => "Japanese"
  | .korean => "Korean"
  | .chineseSimplified => "ChineseSimplified"
  | .chineseTraditional => "ChineseTraditional"
  | .italian => "Italian"
  | .spanish => "Spanish"

/-- Object key. -/
def key (s : String) : Option Str := some s.toList

/-- A byte string: Base64 text. -/
def bytesTree (b : Bytes) : Json := .str (some (Spec.Base64.text b))

/-- An optional value: `null` when absent. -/
def optTree {α : Type} (f : α → Json) : Option α → Json
  | none => .null
  | some a => f a

/-- One stored key: `[network, "base64"]`. -/
def keyTree (e : Network × Bytes) : Json := .arr [.int e.1.toNat, bytesTree e.2]

/-- The stored keys. -/
def keysTree (l : List (Network × Bytes)) : Json := .arr (l.map keyTree)

/-- Version 2 content. -/
def v2Tree (seed : Option Bytes) (mnemonic : Option Str) (dictionary : Option Language) (keys : List (Network × Bytes)) :
    Json :=
  .obj [(key "seed", optTree bytesTree seed), (key "mnemonic", optTree (fun s => .str (some s)) mnemonic),
    (key "dictionary", optTree (fun l => .str (some (langName l).toList)) dictionary), (key "keys", keysTree keys)]

/-- The envelope. -/
def envelopeTree (version : Nat) (data : Bytes) : Json := .obj [(key "version", .int version), (key "data", bytesTree data)]

/-- Value under a name that occurs exactly once. -/
def Once (members : List (Option Str × Json)) (name : String) (j : Json) : Prop :=
  members.filter (fun m => m.1 = key name) = [(key name, j)]

/-- Version 1 content with these keys, in the listed order: an object with `keys`, perhaps among other members (whose names are
Unicode text). -/
def IsV1 (keys : List (Network × Bytes)) (b : Bytes) : Prop :=
  ∃ members, Doc (.obj members) b ∧ (∀ m ∈ members, m.1 ≠ none) ∧ Once members "keys" (keysTree keys)

/-- Version 2 content, with the members in any order, perhaps among others. -/
def IsV2 (seed : Option Bytes) (mnemonic : Option Str) (dictionary : Option Language) (keys : List (Network × Bytes))
    (b : Bytes) : Prop :=
  ∃ members, Doc (.obj members) b ∧ (∀ m ∈ members, m.1 ≠ none) ∧ Once members "seed" (optTree bytesTree seed) ∧
    Once members "mnemonic" (optTree (fun s => .str (some s)) mnemonic) ∧
    Once members "dictionary" (optTree (fun l => .str (some (langName l).toList)) dictionary) ∧
    Once members "keys" (keysTree keys)

/-- An envelope with the given version and content: an object with `version` and `data`, in any order, perhaps among other
members. -/
def IsEnvelope (version : Nat) (content b : Bytes) : Prop :=
  ∃ members, Doc (.obj members) b ∧ (∀ m ∈ members, m.1 ≠ none) ∧ Once members "version" (.int version) ∧ Once members "data" (bytesTree content)

/-! ### Everything that loads -/

/-- The value found under a name: `none` if there is no such member, an error if there are several. -/
def Found (members : List (Option Str × Json)) (name : String) : Option Json → Prop
  | some j => Once members name j
  | none => ∀ m ∈ members, m.1 ≠ key name

/-- A record with the given field names, and the values found for them: an object with those members in any order, among others
perhaps, but with Unicode names; or an array of exactly those values, in the order of the names. -/
inductive Record (names : List String) : Json → List (Option Json) → Prop
  | object (members values) : (∀ m ∈ members, m.1 ≠ none) → values.length = names.length →
      (∀ i (h : i < names.length) (h' : i < values.length), Found members names[i] values[i]) → Record names (.obj members) values
  | array (l) : l.length = names.length → Record names (.arr l) (l.map some)

/-- A string the Base64 decoder decodes to these bytes. -/
def IsBytes (D : Base64.Decoder) (b : Bytes) (j : Json) : Prop := ∃ s, j = .str (some s) ∧ D.decode s = some b

/-- One stored key: `[network, "base64"]`. -/
def IsKey (D : Base64.Decoder) (e : Network × Bytes) (j : Json) : Prop := ∃ k, j = .arr [.int e.1.toNat, k] ∧ IsBytes D e.2 k

/-- The stored keys. -/
def IsKeys (D : Base64.Decoder) (keys : List (Network × Bytes)) (j : Json) : Prop :=
  ∃ l, j = .arr l ∧ l.length = keys.length ∧ ∀ i (h : i < keys.length) (h' : i < l.length), IsKey D keys[i] l[i]

/-- The stored seed: never absent, but perhaps `null`. -/
def IsSeed (D : Base64.Decoder) : Option Bytes → Json → Prop
  | none, j => j = .null
  | some b, j => IsBytes D b j

/-- The stored mnemonic: absent or `null` for none. -/
def IsMnemonic : Option Str → Option Json → Prop
  | none, j => j = none ∨ j = some .null
  | some s, j => j = some (.str (some s))

/-- The stored language: absent or `null` for none; its name, or an object with that name as only key and `null` as value. -/
def IsDictionary : Option Language → Option Json → Prop
  | none, j => j = none ∨ j = some .null
  | some l, j => j = some (.str (key (langName l))) ∨ j = some (.obj [(key (langName l), .null)])

/-- Any envelope. -/
def AnyEnvelope (D : Base64.Decoder) (version : Nat) (content b : Bytes) : Prop :=
  ∃ j jv jd, Doc j b ∧ Record ["version", "data"] j [some jv, some jd] ∧ jv = .int version ∧ IsBytes D content jd

/-- Any version 1 content. -/
def AnyV1 (D : Base64.Decoder) (keys : List (Network × Bytes)) (b : Bytes) : Prop :=
  ∃ j jk, Doc j b ∧ Record ["keys"] j [some jk] ∧ IsKeys D keys jk

/-- Any version 2 content. -/
def AnyV2 (D : Base64.Decoder) (seed : Option Bytes) (mnemonic : Option Str) (dictionary : Option Language)
    (keys : List (Network × Bytes)) (b : Bytes) : Prop :=
  ∃ j js jm jd jk, Doc j b ∧ Record ["seed", "mnemonic", "dictionary", "keys"] j [some js, jm, jd, some jk] ∧
    IsSeed D seed js ∧ IsMnemonic mnemonic jm ∧ IsDictionary dictionary jd ∧ IsKeys D keys jk

/-- The last entry for a network. -/
def lastOf {V : Type} (n : Network) (l : List (Network × V)) : Option V :=
  ((l.filter fun e => e.1 = n).getLast?).map Prod.snd

end KC.Spec.Data
