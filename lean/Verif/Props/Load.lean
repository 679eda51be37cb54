import Verif.Proofs.Load
import Verif.Props.Data
/-
C62: exactly what loads.
-/
namespace KC.Props
open KC.Data KC.Spec.Data KC.Spec.Json
open KC.Json (Json)
open KC.Mnemonic (Language)

/-- C62: the JSON reader accepts exactly the documents of the grammar, and reads them as what they stand for: nothing before or
after but white space, no control characters in strings, nesting at most 127 deep. -/
theorem C62_json (b : Bytes) (j : Json) : Json.parse b = some j ↔ Doc j b := parse_iff b j

/-- C62: a text stands for one value at most. -/
theorem C62_unambiguous (b : Bytes) (j j' : Json) (h : Doc j b) (h' : Doc j' b) : j = j' := by
  rw [← C62_json] at h h'
  rw [h] at h'
  exact Option.some.inj h'

/-- C62: an envelope loads exactly if it is a record with one version, 1 or 2, and one Base64 string. -/
theorem C62_envelope (D : Base64.Decoder) (b : Bytes) (version : Nat) (content : Bytes) :
    (∃ v, Versioned.fromBytes D b = some v ∧ v.version.toNat = version ∧ v.data = content) ↔
    (version = 1 ∨ version = 2) ∧ AnyEnvelope D version content b := by
  constructor
  · rintro ⟨⟨v, c⟩, h, rfl, rfl⟩
    exact ⟨by cases v <;> simp [Version.toNat], (fromBytes_iff D b v c).mp h⟩
  · rintro ⟨rfl | rfl, h⟩
    · exact ⟨⟨.v1, content⟩, (fromBytes_iff D b .v1 content).mpr h, rfl, rfl⟩
    · exact ⟨⟨.v2, content⟩, (fromBytes_iff D b .v2 content).mpr h, rfl, rfl⟩

/-- C62: version 1 content loads exactly if it is a record of keys; there is then no seed or phrase, and each network has the last
key listed for it. -/
theorem C62_v1 (D : Base64.Decoder) (inner : Bytes) (seed : Option Bytes) (mnemonic : Option Str)
    (dictionary : Option Language) (f : Network → Option Bytes) :
    (∃ w, (Versioned.mk .v1 inner).getData D = some w ∧ w.seed = seed ∧ w.mnemonic = mnemonic ∧ w.dictionary = dictionary ∧
      ∀ n, w.keys.get n = f n) ↔
    seed = none ∧ mnemonic = none ∧ dictionary = none ∧ ∃ keys, AnyV1 D keys inner ∧ ∀ n, f n = lastOf n keys := by
  simp only [Versioned.getData, Option.map_eq_some_iff, Option.bind_eq_some_iff, parse_iff]
  constructor
  · rintro ⟨w, ⟨w1, ⟨j, hj, h⟩, rfl⟩, rfl, rfl, rfl, hf⟩
    obtain ⟨jk, keys, hr, hk, hw⟩ := (readV1_iff D _ _).mp h
    refine ⟨rfl, rfl, rfl, keys, ⟨j, jk, hj, hr, hk⟩, fun n => ?_⟩
    rw [← hf]
    show w1.keys.get n = _
    rw [hw, NMap.get_ofList]
  · rintro ⟨rfl, rfl, rfl, keys, ⟨j, jk, hj, hr, hk⟩, hf⟩
    refine ⟨_, ⟨⟨NMap.ofList keys⟩, ⟨j, hj, (readV1_iff D _ _).mpr ⟨jk, keys, hr, hk, rfl⟩⟩, rfl⟩, rfl, rfl, rfl, fun n => ?_⟩
    rw [hf]
    exact NMap.get_ofList keys n

/-- C62: version 2 content loads exactly if it is a record of seed, phrase, language and keys. -/
theorem C62_v2 (D : Base64.Decoder) (inner : Bytes) (seed : Option Bytes) (mnemonic : Option Str)
    (dictionary : Option Language) (f : Network → Option Bytes) :
    (∃ w, (Versioned.mk .v2 inner).getData D = some w ∧ w.seed = seed ∧ w.mnemonic = mnemonic ∧ w.dictionary = dictionary ∧
      ∀ n, w.keys.get n = f n) ↔
    ∃ keys, AnyV2 D seed mnemonic dictionary keys inner ∧ ∀ n, f n = lastOf n keys := by
  simp only [Versioned.getData, Option.bind_eq_some_iff, parse_iff]
  constructor
  · rintro ⟨w, ⟨j, hj, h⟩, rfl, rfl, rfl, hf⟩
    obtain ⟨js, jm, jd, jk, keys, hr, hs, hm, hd, hk, hw⟩ := (readV2_iff D _ _).mp h
    refine ⟨keys, ⟨j, js, jm, jd, jk, hj, hr, hs, hm, hd, hk⟩, fun n => ?_⟩
    rw [← hf, hw, NMap.get_ofList]
  · rintro ⟨keys, ⟨j, js, jm, jd, jk, hj, hr, hs, hm, hd, hk⟩, hf⟩
    refine ⟨⟨seed, mnemonic, dictionary, NMap.ofList keys⟩,
      ⟨j, hj, (readV2_iff D _ _).mpr ⟨js, jm, jd, jk, keys, hr, hs, hm, hd, hk, rfl⟩⟩, rfl, rfl, rfl, fun n => ?_⟩
    rw [hf]
    exact NMap.get_ofList keys n

/-- UTF-8 bytes of a literal. -/
def lit (s : String) : Bytes := Str.utf8 s.toList

/-- An envelope as an array, and content with the members in another order, a number with an exponent among them, a lone surrogate
in an ignored string, escapes, and the language as an object: all of it loads. -/
def oddV2 : Bytes := lit ("{\"keys\":[[ 60 ,\"AQ==\"]], \"x\":[-1.5e+3,\"\\ud800\",{}],\"dictionary\":{\"French\":null}," ++
  "\"\\u0073eed\" : null , \"mnemonic\":\"\\ud83d\\ude00\"}")

example : ((Versioned.fromBytes Base64.strict (lit "[ 2,\"" ++ lit (String.ofList (Base64.encode oddV2)) ++ lit "\"]\n")).bind
    (Versioned.getData Base64.strict)).any (fun w => w.seed.isNone && w.mnemonic.map String.ofList = some "😀" &&
      w.dictionary.map langName = some "French" && w.keys.entries = [(60, [1])]) = true := by decide +kernel

/-- Texts that are close to JSON but are not: something after the end, a raw control character in a string, a leading zero, a
trailing comma, a missing digit, 128 levels of nesting. -/
example : ([lit "1 2", lit "\"a\tb\"", lit "01", lit "[1,]", lit "1.", lit "{\"a\" 1}", lit "nul",
    List.replicate 128 91 ++ List.replicate 128 93].map fun b => (Json.parse b).isSome) = List.replicate 8 false ∧
    (Json.parse (List.replicate 127 91 ++ List.replicate 127 93)).isSome = true := by decide +kernel

/-- Hence none of them is a document. -/
example : ¬ ∃ j, Doc j (lit "1 2") := by
  rintro ⟨j, h⟩
  rw [← C62_json] at h
  have : (Json.parse (lit "1 2")).isNone := by decide +kernel
  rw [h] at this
  cases this

/-- The array envelope is one in the sense of the grammar. -/
example : ∃ content, AnyEnvelope Base64.strict 2 content (lit "[ 2,\"e30=\"]\n") := by
  have h : Versioned.fromBytes Base64.strict (lit "[ 2,\"e30=\"]\n") = some ⟨.v2, lit "{}"⟩ := by
    have : (Versioned.fromBytes Base64.strict (lit "[ 2,\"e30=\"]\n")).map (fun v => (v.version, v.data)) =
      some (.v2, lit "{}") := by decide +kernel
    obtain ⟨⟨a, b⟩, h1, h2⟩ := Option.map_eq_some_iff.mp this
    simp only [Prod.mk.injEq] at h2
    rw [h1, h2.1, h2.2]
  exact ⟨_, (fromBytes_iff _ _ _ _).mp h⟩

end KC.Props
