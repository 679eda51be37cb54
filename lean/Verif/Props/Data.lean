import Verif.Proofs.Data
import Verif.Proofs.Base64
/-
C35-C37: keychain/src/data.rs.
-/
namespace KC.Props
open KC.Data KC.Spec.Data KC.Spec.Json
open KC.Json (Json)

/-- C35: binary fields are written in the Base64 of RFC 4648, with padding. -/
theorem C35_base64 (b : Bytes) : Base64.encode b = Spec.Base64.text b := Base64.encode_rfc b

example : Spec.Base64.text [0xff, 0xfe, 0, 1] = "//4AAQ==".toList ∧ Spec.Base64.text [0xfb, 0xef] = "++8=".toList := by decide +kernel

/-- C35: what is written reads back the same, for every content and every iteration order. -/
theorem C35_roundtrip (D : Base64.Decoder) (it : Iter (Network × Bytes)) (w : WalletV2) :
    ∃ v w', Versioned.fromBytes D (Versioned.new it w).toBytes = some v ∧ v.getData D = some w' ∧
      w'.seed = w.seed ∧ w'.mnemonic = w.mnemonic ∧ w'.dictionary = w.dictionary ∧ ∀ n, w'.keys.get n = w.keys.get n := by
  have hdoc := Json.doc_of_text (envelope_text 126 (Versioned.new it w))
  refine ⟨Versioned.new it w, ⟨w.seed, w.mnemonic, w.dictionary, NMap.ofList (it.order w.keys.entries)⟩, ?_, ?_, rfl, rfl, rfl,
    fun n => NMap.get_ofList_perm _ (it.perm _) n⟩
  · rw [fromBytes_envelope D (version := 2) (content := (Versioned.new it w).data)
      ⟨_, hdoc, by simp [key], by simp [Once, key, Versioned.new, Version.toNat], by simp [Once, key]⟩]
    rfl
  · have := Json.parse_doc (Json.doc_of_text (v2_text 124 it w))
    simp only [Versioned.new, Versioned.getData, this, Option.bind_some, readV2_tree]

/-- C35, the format: the text is a JSON envelope with version 2 and Base64 data, which is itself a JSON object with the four
fields, the keys being listed in some order. -/
theorem C35_format (it : Iter (Network × Bytes)) (w : WalletV2) :
    ∃ inner keys, Doc (envelopeTree 2 inner) (Versioned.new it w).toBytes ∧
      Doc (v2Tree w.seed w.mnemonic w.dictionary keys) inner ∧ keys.Perm w.keys.entries :=
  ⟨_, _, Json.doc_of_text (envelope_text 126 (Versioned.new it w)), Json.doc_of_text (v2_text 124 it w), it.perm _⟩

/-- C36: any JSON rendering of a version 1 wallet loads with exactly its keys, and neither seed nor mnemonic. -/
theorem C36_v1 (D : Base64.Decoder) (keys : List (Network × Bytes)) (inner b : Bytes)
    (he : IsEnvelope 1 inner b) (hi : IsV1 keys inner) :
    ∃ v w, Versioned.fromBytes D b = some v ∧ v.getData D = some w ∧
      w.seed = none ∧ w.mnemonic = none ∧ w.dictionary = none ∧ ∀ n, w.keys.get n = lastOf n keys := by
  obtain ⟨l, hd, hn, ho⟩ := hi
  refine ⟨⟨.v1, inner⟩, ⟨none, none, none, NMap.ofList keys⟩, ?_, ?_, rfl, rfl, rfl, NMap.get_ofList keys⟩
  · rw [fromBytes_envelope D he]; rfl
  · simp only [Versioned.getData, Json.parse_doc hd, Option.bind_some, readV1_once D hn ho]
    rfl

/-- C36: an envelope whose version is anything but the numbers 1 and 2 is refused. -/
theorem C36_version (D : Base64.Decoder) (members : List (Option Str × Json)) (version : Json) (b : Bytes)
    (hd : Doc (.obj members) b) (hv : Once members "version" version) (h1 : version ≠ .int 1) (h2 : version ≠ .int 2) :
    Versioned.fromBytes D b = none := by
  rw [Versioned.fromBytes, Json.parse_doc hd]
  exact readEnvelope_version D hv h1 h2

/-- C36: so is one without a version. -/
theorem C36_no_version (D : Base64.Decoder) (members : List (Option Str × Json)) (b : Bytes)
    (hd : Doc (.obj members) b) (hv : ∀ m ∈ members, m.1 ≠ key "version") : Versioned.fromBytes D b = none := by
  rw [Versioned.fromBytes, Json.parse_doc hd]
  exact readEnvelope_none D hv

/-- C35: so does any other JSON rendering of a version 2 wallet. -/
theorem C35_reads_any (D : Base64.Decoder) (seed : Option Bytes) (mnemonic : Option Str) (dictionary : Option Mnemonic.Language)
    (keys : List (Network × Bytes)) (inner b : Bytes) (he : IsEnvelope 2 inner b)
    (hi : IsV2 seed mnemonic dictionary keys inner) :
    ∃ v w, Versioned.fromBytes D b = some v ∧ v.getData D = some w ∧
      w.seed = seed ∧ w.mnemonic = mnemonic ∧ w.dictionary = dictionary ∧ ∀ n, w.keys.get n = lastOf n keys := by
  obtain ⟨l, hd, hn, hs, hm, hdic, hk⟩ := hi
  refine ⟨⟨.v2, inner⟩, ⟨seed, mnemonic, dictionary, NMap.ofList keys⟩, ?_, ?_, rfl, rfl, rfl, NMap.get_ofList keys⟩
  · rw [fromBytes_envelope D he]; rfl
  · simp only [Versioned.getData, Json.parse_doc hd, Option.bind_some, readV2_once D hn hs hm hdic hk]

/-- C37: in stored data of either version the last entry for a network is the one used. -/
theorem C37_last (D : Base64.Decoder) (before after : List (Network × Bytes)) (n : Network) (k : Bytes)
    (hafter : ∀ e ∈ after, e.1 ≠ n) (inner b : Bytes)
    (h : IsEnvelope 1 inner b ∧ IsV1 (before ++ (n, k) :: after) inner ∨
      IsEnvelope 2 inner b ∧ ∃ s m d, IsV2 s m d (before ++ (n, k) :: after) inner) :
    ∃ v w, Versioned.fromBytes D b = some v ∧ v.getData D = some w ∧ w.keys.get n = some k := by
  have hl : lastOf n (before ++ (n, k) :: after) = some k := by
    have h' : after.filter (fun e => decide (e.1 = n)) = [] := by
      rw [List.filter_eq_nil_iff]; intro e he; simpa using hafter e he
    simp [lastOf, List.filter_append, h']
  rcases h with ⟨he, hi⟩ | ⟨he, s, m, d, hi⟩
  · obtain ⟨v, w, h1, h2, -, -, -, h3⟩ := C36_v1 D _ inner b he hi
    exact ⟨v, w, h1, h2, (h3 n).trans hl⟩
  · obtain ⟨v, w, h1, h2, -, -, -, h3⟩ := C35_reads_any D s m d _ inner b he hi
    exact ⟨v, w, h1, h2, (h3 n).trans hl⟩

/-- C37: written data lists each network once. -/
theorem C37_written_once (it : Iter (Network × Bytes)) (w : WalletV2) :
    ∃ inner keys, Doc (envelopeTree 2 inner) (Versioned.new it w).toBytes ∧
      Doc (v2Tree w.seed w.mnemonic w.dictionary keys) inner ∧ (keys.map Prod.fst).Nodup :=
  have ⟨inner, keys, h1, h2, h3⟩ := C35_format it w
  ⟨inner, keys, h1, h2, NMap.perm_nodup h3 w.keys.nodup⟩

/-- Base64 text of RFC 4648, section 10. -/
example : ["", "f", "fo", "foo", "foob", "fooba", "foobar"].map (fun s => String.ofList (Base64.encode (Str.utf8 s.toList))) =
    ["", "Zg==", "Zm8=", "Zm9v", "Zm9vYg==", "Zm9vYmE=", "Zm9vYmFy"] := by decide +kernel

/-- A wallet whose mnemonic has quotes, control characters and non-ASCII letters. -/
def sampleWallet : WalletV2 :=
  ⟨none, some ['"', 'é', '\n', Char.ofNat 1, '\\'], some .french, NMap.ofList [(60, [1, 2, 3, 4]), (1815, [])]⟩

/-- Iteration as stored, and the other way round. -/
def forwards {α : Type} : Iter α := ⟨id, fun _ => .refl _⟩
def backwards {α : Type} : Iter α := ⟨List.reverse, List.reverse_perm⟩

/-- The written form of the sample, and a different one with the other order. -/
example : sampleWallet.toVec forwards =
    Str.utf8 "{\"seed\":null,\"mnemonic\":\"\\\"é\\n\\u0001\\\\\",\"dictionary\":\"French\",\"keys\":[[60,\"AQIDBA==\"],[1815,\"\"]]}".toList ∧
    sampleWallet.toVec forwards ≠ sampleWallet.toVec backwards := by decide +kernel

/-- A version 1 wallet, listing one network twice, with other spacing than the writer's. -/
def sampleV1 : Bytes := Str.utf8 "{ \"keys\" : [[60,\"AQ==\"], [60,\"Ag==\"]] }".toList

theorem sampleV1_isV1 : IsV1 [(60, [1]), (60, [2])] sampleV1 := by
  have h : ∀ k : UInt8, Elems 124 [.int 60, bytesTree [k]] ([] ++ [54, 48] ++ [] ++ 44 :: ([] ++ writeBytes [k] ++ [])) := fun k =>
    .cons _ _ _ _ _ _ _ .nil (.nat _ 60 _ (.more 6 0 _ (by omega) (by omega) (.one 6 (by omega)))) .nil
      (.one _ _ _ _ _ .nil (bytes_text _ _) .nil)
  have ht : Text 127 (.obj [(key "keys", keysTree [(60, [1]), (60, [2])])]) _ :=
    .obj _ _ _ (.one _ (key "keys") _ [32] _ [32] [32] _ [32] (.cons _ _ (by simp) .nil)
      (.text _ _ (.raw 'k' _ _ (by decide) (by decide) (by decide) (.raw 'e' _ _ (by decide) (by decide) (by decide)
        (.raw 'y' _ _ (by decide) (by decide) (by decide) (.raw 's' _ _ (by decide) (by decide) (by decide) .nil)))))
      (.cons _ _ (by simp) .nil) (.cons _ _ (by simp) .nil)
      (.arr _ _ _ (.cons _ _ _ [] _ [] _ .nil (.arr _ _ _ (h 1)) .nil
        (.one _ _ [32] _ [] (.cons _ _ (by simp) .nil) (.arr _ _ _ (h 2)) .nil)))
      (.cons _ _ (by simp) .nil))
  refine ⟨_, ?_, by simp [key], (by simp [Once, key] : Once [(key "keys", keysTree [(60, [1]), (60, [2])])] "keys" _)⟩
  have := Doc.mk _ [] _ [] .nil ht .nil
  exact Eq.mp (congrArg (Doc _) (by decide +kernel)) this

/-- Its envelope. -/
def sampleV1Envelope : Bytes := Versioned.toBytes ⟨.v1, sampleV1⟩

/-- Non-vacuity of C36 and C37. -/
example : IsEnvelope 1 sampleV1 sampleV1Envelope ∧ IsV1 ([(60, [1])] ++ (60, [2]) :: []) sampleV1 ∧
    (∀ e ∈ ([] : List (Network × Bytes)), e.1 ≠ 60) :=
  ⟨⟨_, Json.doc_of_text (envelope_text 126 ⟨.v1, sampleV1⟩), by simp [key], by simp [Once, key, Version.toNat], by simp [Once, key]⟩,
    sampleV1_isV1, by simp⟩

/-- It really loads, with the second entry. -/
example : ((Versioned.fromBytes Base64.strict sampleV1Envelope).bind (Versioned.getData Base64.strict)).map
    (fun w => (w.seed, w.mnemonic, w.keys.entries)) = some (none, none, [(60, [2])]) := by decide +kernel

/-- Non-vacuity of `C36_version`: version 3 in an otherwise good envelope. -/
example : ∃ members b, Doc (.obj members) b ∧ Once members "version" (.int 3) ∧ Once members "data" (bytesTree sampleV1) :=
  ⟨[(key "version", .int 3), (key "data", bytesTree sampleV1)], _, Json.doc_of_text (Json.writeObj_text 126
    (fun x : String × Json × Bytes => x.1.toList) (fun x => x.2.2) (fun x => x.2.1)
    [("version", .int 3, Json.writeNat 3), ("data", bytesTree sampleV1, writeBytes sampleV1)] (by
      intro x hx
      simp only [List.mem_cons, List.not_mem_nil, or_false] at hx
      rcases hx with rfl | rfl
      · exact Json.writeNat_text _ 3
      · exact bytes_text _ _)), by simp [Once, key], by simp [Once, key]⟩

end KC.Props
