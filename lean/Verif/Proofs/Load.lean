import Verif.Proofs.Data
/-
Exactly what loads.
-/
namespace KC.Data
open KC.Json (Json)
open KC.Spec.Data KC.Spec.Json
open KC.Mnemonic (Language)

theorem mapM_some_iff {α β : Type} (f : α → Option β) (l : List α) (r : List β) : l.mapM f = some r ↔
    r.length = l.length ∧ ∀ i (h : i < l.length) (h' : i < r.length), f l[i] = some r[i] := by
  induction l generalizing r with
  | nil =>
    simp only [List.mapM_nil, Option.pure_def, Option.some.injEq, List.length_nil]
    constructor
    · rintro rfl
      exact ⟨rfl, fun i h => absurd h (by simp)⟩
    · rintro ⟨h, -⟩
      exact (List.length_eq_zero_iff.mp h).symm
  | cons a l ih =>
    simp only [List.mapM_cons, Option.bind_eq_bind, Option.bind_eq_some_iff, Option.pure_def, Option.some.injEq]
    constructor
    · rintro ⟨b, hb, r', hr', rfl⟩
      obtain ⟨h1, h2⟩ := (ih r').mp hr'
      refine ⟨by simp [h1], fun i h h' => ?_⟩
      cases i with
      | zero => exact hb
      | succ i => exact h2 i (by simpa using h) (by simpa using h')
    · rintro ⟨h1, h2⟩
      cases r with
      | nil => simp at h1
      | cons b r' =>
        refine ⟨b, h2 0 (by simp) (by simp), r', (ih r').mpr ⟨by simpa using h1, fun i h h' => ?_⟩, rfl⟩
        exact h2 (i + 1) (by simpa using h) (by simpa using h')

theorem found_iff (l : List (Option Str × Json)) (n : String) (v : Option Json) :
    (match l.filter fun m => m.1 = some n.toList with
      | [] => some none
      | [m] => some (some m.2)
      | _ => none) = some v ↔ Found l n v := by
  have hk : (some n.toList : Option Str) = key n := rfl
  rw [hk]
  have hmem : ∀ m ∈ l.filter (fun m => decide (m.1 = key n)), m.1 = key n := by
    intro m hm
    simpa using (List.mem_filter.mp hm).2
  cases v with
  | none =>
    simp only [Found]
    split
    · rename_i h
      simp only [true_iff]
      intro m hm hc
      have := (List.filter_eq_nil_iff.mp h) m hm
      simp [hc] at this
    · rename_i m h
      simp only [Option.some.injEq, reduceCtorEq, false_iff]
      intro hc
      have : m ∈ l.filter (fun m => decide (m.1 = key n)) := by rw [h]; simp
      exact hc m (List.mem_filter.mp this).1 (hmem m this)
    · rename_i h1 h2
      simp only [reduceCtorEq, false_iff]
      intro hc
      refine h1 (List.filter_eq_nil_iff.mpr fun m hm => ?_)
      simpa using hc m hm
  | some j =>
    simp only [Found, Once]
    split
    · rename_i h
      simp [h]
    · rename_i m h
      have : m.1 = key n := hmem m (by rw [h]; simp)
      obtain ⟨a, b⟩ := m
      dsimp only at this
      subst this
      simp [h]
    · rename_i h1 h2
      simp only [reduceCtorEq, false_iff]
      intro hc
      exact h2 _ hc

theorem fields_iff (names : List String) (j : Json) (values : List (Option Json)) :
    fields (names.map String.toList) j = some values ↔ Record names j values := by
  constructor
  · intro h
    cases j with
    | arr l =>
      simp only [fields, List.length_map] at h
      split at h
      · rename_i hl
        cases h
        exact .array l hl
      · cases h
    | obj l =>
      simp only [fields] at h
      split at h
      · cases h
      · rename_i ha
        obtain ⟨h1, h2⟩ := (mapM_some_iff _ _ _).mp h
        rw [List.length_map] at h1
        refine .object l values ?_ h1 fun i hi hi' => ?_
        · intro m hm hc
          exact ha (List.any_eq_true.mpr ⟨m, hm, by simp [hc]⟩)
        · have := h2 i (by simpa using hi) hi'
          rw [List.getElem_map] at this
          exact (found_iff l _ _).mp this
    | _ => cases h
  · intro h
    cases h with
    | array l hl => simp [fields, hl]
    | object l values h1 h2 h3 =>
      simp only [fields]
      rw [if_neg, mapM_some_iff]
      · refine ⟨by rw [List.length_map, h2], fun i hi hi' => ?_⟩
        rw [List.getElem_map]
        exact (found_iff l _ _).mpr (h3 i (by simpa using hi) hi')
      · intro ha
        obtain ⟨m, hm, hc⟩ := List.any_eq_true.mp ha
        exact h1 m hm (by simpa using hc)

theorem readStr_iff (j : Json) (s : Str) : readStr j = some s ↔ j = .str (some s) := by
  cases j <;> simp [readStr]

theorem readBytes_iff (D : Base64.Decoder) (j : Json) (b : Bytes) : readBytes D j = some b ↔ IsBytes D b j := by
  simp only [readBytes, Option.bind_eq_some_iff, readStr_iff, IsBytes]

theorem readUInt_iff (max : Nat) (j : Json) (n : Nat) : readUInt max j = some n ↔ j = .int n ∧ n ≤ max := by
  cases j with
  | int i =>
    simp only [readUInt, Json.int.injEq]
    split
    · simp only [Option.some.injEq]; omega
    · simp only [reduceCtorEq, false_iff]; omega
  | _ => simp [readUInt]

theorem readKey_iff (D : Base64.Decoder) (j : Json) (e : Network × Bytes) : readKey D j = some e ↔ IsKey D e j := by
  obtain ⟨n, b⟩ := e
  have hn := n.toNat_lt
  constructor
  · intro h
    unfold readKey at h
    split at h
    · rename_i jn jk
      simp only [Option.bind_eq_bind, Option.bind_eq_some_iff, Option.pure_def, Option.some.injEq, Prod.mk.injEq] at h
      obtain ⟨m, hm, k, hk, rfl, rfl⟩ := h
      obtain ⟨rfl, hm'⟩ := (readUInt_iff _ _ _).mp hm
      refine ⟨jk, ?_, (readBytes_iff D _ _).mp hk⟩
      rw [UInt32.toNat_ofNat', Nat.mod_eq_of_lt (by omega)]
    · cases h
  · rintro ⟨k, rfl, hk⟩
    have h1 : readUInt 4294967295 (.int n.toNat) = some n.toNat := (readUInt_iff _ _ _).mpr ⟨rfl, by omega⟩
    have h2 := (readBytes_iff D _ _).mpr hk
    simp only [readKey, h1, h2, Option.bind_eq_bind, Option.bind_some, Option.pure_def, UInt32.ofNat_toNat]

theorem readKeys_iff (D : Base64.Decoder) (j : Json) (m : NMap Bytes) :
    readKeys D j = some m ↔ ∃ keys, IsKeys D keys j ∧ m = NMap.ofList keys := by
  constructor
  · intro h
    cases j with
    | arr l =>
      simp only [readKeys, Option.map_eq_some_iff] at h
      obtain ⟨keys, hk, rfl⟩ := h
      obtain ⟨h1, h2⟩ := (mapM_some_iff _ _ _).mp hk
      exact ⟨keys, ⟨l, rfl, h1.symm, fun i hi hi' => (readKey_iff D _ _).mp (h2 i hi' hi)⟩, rfl⟩
    | _ => cases h
  · rintro ⟨keys, ⟨l, rfl, h1, h2⟩, rfl⟩
    simp only [readKeys, Option.map_eq_some_iff]
    exact ⟨keys, (mapM_some_iff _ _ _).mpr ⟨h1.symm, fun i hi hi' => (readKey_iff D _ _).mpr (h2 i hi' hi)⟩, rfl⟩

theorem readOptBytes_iff (D : Base64.Decoder) (j : Json) (s : Option Bytes) : readOptBytes D j = some s ↔ IsSeed D s j := by
  cases s with
  | none =>
    simp only [IsSeed]
    cases j <;> simp [readOptBytes]
  | some b =>
    simp only [IsSeed, ← readBytes_iff]
    cases j with
    | str s => cases s <;> simp [readOptBytes, readBytes, readStr]
    | _ => simp [readOptBytes, readBytes, readStr]

theorem optional_readStr_iff (j : Option Json) (s : Option Str) : optional readStr j = some s ↔ IsMnemonic s j := by
  cases s with
  | none =>
    cases j with
    | none => simp [optional, IsMnemonic]
    | some j => cases j <;> simp [optional, IsMnemonic, readStr]
  | some t =>
    cases j with
    | none => simp [optional, IsMnemonic]
    | some j => cases j <;> simp [optional, IsMnemonic, readStr]

theorem languageOf_iff (s : Str) (l : Language) : languageOf s = some l ↔ s = (langName l).toList := by
  constructor
  · intro h
    have := List.find?_some h
    simp only [decide_eq_true_eq] at this
    rw [← this, languageName_eq]
  · rintro rfl
    exact languageOf_name l

theorem readLanguage_iff (j : Json) (l : Language) :
    readLanguage j = some l ↔ j = .str (key (langName l)) ∨ j = .obj [(key (langName l), .null)] := by
  have hs : ∀ s : Option Str, s.bind languageOf = some l ↔ s = key (langName l) := by
    intro s
    cases s with
    | none => simp [key]
    | some s => simp [key, languageOf_iff]
  unfold readLanguage
  split
  · simp [hs]
  · simp [hs]
  · rename_i h1 h2
    simp only [reduceCtorEq, false_iff]
    rintro (rfl | rfl)
    · exact h1 _ rfl
    · exact h2 _ rfl

theorem optional_readLanguage_iff (j : Option Json) (l : Option Language) :
    optional readLanguage j = some l ↔ IsDictionary l j := by
  cases j with
  | none => cases l <;> simp [optional, IsDictionary]
  | some j =>
    by_cases hj : j = .null
    · subst hj
      cases l <;> simp [optional, IsDictionary]
    · have : optional readLanguage (some j) = (readLanguage j).map some := by cases j <;> first | rfl | exact absurd rfl hj
      rw [this, Option.map_eq_some_iff]
      cases l with
      | none => simp [IsDictionary, hj]
      | some l => simp [IsDictionary, readLanguage_iff]

theorem readVersion_iff (j : Json) (v : Version) : readVersion j = some v ↔ j = .int v.toNat := by
  simp only [readVersion, Option.bind_eq_bind, Option.bind_eq_some_iff, readUInt_iff]
  constructor
  · rintro ⟨n, ⟨rfl, hn⟩, h⟩
    split at h
    · rename_i h1
      cases h
      rw [h1]; rfl
    split at h
    · rename_i h1
      cases h
      rw [h1]; rfl
    · cases h
  · rintro rfl
    cases v
    · exact ⟨1, ⟨rfl, by omega⟩, rfl⟩
    · exact ⟨2, ⟨rfl, by omega⟩, rfl⟩

theorem parse_iff (b : Bytes) (j : Json) : Json.parse b = some j ↔ Doc j b := ⟨Json.doc_parse, Json.parse_doc⟩

theorem record_length {names : List String} {j : Json} {values : List (Option Json)} (h : Record names j values) :
    values.length = names.length := by
  cases h with
  | object _ _ _ h _ => exact h
  | array l h => simpa using h

theorem fromBytes_iff (D : Base64.Decoder) (b : Bytes) (v : Version) (content : Bytes) :
    Versioned.fromBytes D b = some ⟨v, content⟩ ↔ AnyEnvelope D v.toNat content b := by
  simp only [Versioned.fromBytes, Option.bind_eq_bind, Option.bind_eq_some_iff, parse_iff]
  constructor
  · rintro ⟨j, hj, r, hr, h⟩
    replace hr := (fields_iff ["version", "data"] j r).mp hr
    split at h
    · rename_i jv jd
      simp only [Option.bind_eq_some_iff, Option.pure_def, Option.some.injEq, Versioned.mk.injEq] at h
      obtain ⟨v', hv, c, hc, rfl, rfl⟩ := h
      cases jv with
      | none => cases hv
      | some jv =>
        cases jd with
        | none => cases hc
        | some jd => exact ⟨j, jv, jd, hj, hr, (readVersion_iff _ _).mp hv, (readBytes_iff D _ _).mp hc⟩
    · cases h
  · rintro ⟨j, jv, jd, hj, hr, hv, hd⟩
    refine ⟨j, hj, _, (fields_iff _ _ _).mpr hr, ?_⟩
    simp only [required, (readVersion_iff _ _).mpr hv, (readBytes_iff D _ _).mpr hd, Option.bind_some, Option.pure_def]

theorem readV1_iff (D : Base64.Decoder) (j : Json) (w : WalletV1) :
    readV1 D j = some w ↔ ∃ jk keys, Record ["keys"] j [some jk] ∧ IsKeys D keys jk ∧ w.keys = NMap.ofList keys := by
  simp only [readV1, Option.bind_eq_bind, Option.bind_eq_some_iff]
  constructor
  · rintro ⟨r, hr, h⟩
    replace hr := (fields_iff ["keys"] j r).mp hr
    split at h
    · rename_i jk
      simp only [Option.bind_eq_some_iff, Option.pure_def, Option.some.injEq] at h
      obtain ⟨m, hm, rfl⟩ := h
      cases jk with
      | none => cases hm
      | some jk =>
        obtain ⟨keys, hk, rfl⟩ := (readKeys_iff D _ _).mp hm
        exact ⟨jk, keys, hr, hk, rfl⟩
    · cases h
  · rintro ⟨jk, keys, hr, hk, hw⟩
    refine ⟨_, (fields_iff _ _ _).mpr hr, ?_⟩
    obtain ⟨m⟩ := w
    dsimp only at hw
    simp only [required, (readKeys_iff D _ _).mpr ⟨keys, hk, rfl⟩, Option.bind_some, Option.pure_def, hw]

theorem readV2_iff (D : Base64.Decoder) (j : Json) (w : WalletV2) :
    readV2 D j = some w ↔ ∃ js jm jd jk keys, Record ["seed", "mnemonic", "dictionary", "keys"] j [some js, jm, jd, some jk] ∧
      IsSeed D w.seed js ∧ IsMnemonic w.mnemonic jm ∧ IsDictionary w.dictionary jd ∧ IsKeys D keys jk ∧
      w.keys = NMap.ofList keys := by
  simp only [readV2, Option.bind_eq_bind, Option.bind_eq_some_iff]
  constructor
  · rintro ⟨r, hr, h⟩
    replace hr := (fields_iff ["seed", "mnemonic", "dictionary", "keys"] j r).mp hr
    split at h
    · rename_i js jm jd jk
      simp only [Option.bind_eq_some_iff, Option.pure_def, Option.some.injEq] at h
      obtain ⟨s, hs, m, hm, d, hd, k, hk, rfl⟩ := h
      cases js with
      | none => cases hs
      | some js =>
        cases jk with
        | none => cases hk
        | some jk =>
          obtain ⟨keys, hk', rfl⟩ := (readKeys_iff D _ _).mp hk
          exact ⟨js, jm, jd, jk, keys, hr, (readOptBytes_iff D _ _).mp hs, (optional_readStr_iff _ _).mp hm,
            (optional_readLanguage_iff _ _).mp hd, hk', rfl⟩
    · cases h
  · rintro ⟨js, jm, jd, jk, keys, hr, hs, hm, hd, hk, hw⟩
    refine ⟨_, (fields_iff _ _ _).mpr hr, ?_⟩
    obtain ⟨a, b, c, m⟩ := w
    dsimp only at hw hs hm hd
    simp only [required, (readOptBytes_iff D _ _).mpr hs, (optional_readStr_iff _ _).mpr hm,
      (optional_readLanguage_iff _ _).mpr hd, (readKeys_iff D _ _).mpr ⟨keys, hk, rfl⟩, Option.bind_some, Option.pure_def, hw]

theorem isBytes_tree (D : Base64.Decoder) (b : Bytes) : IsBytes D b (bytesTree b) :=
  ⟨_, rfl, by rw [← Base64.encode_rfc]; exact D.decode_encode b⟩

theorem isKeys_tree (D : Base64.Decoder) (keys : List (Network × Bytes)) : IsKeys D keys (keysTree keys) :=
  ⟨_, rfl, by simp, fun i h h' => ⟨_, by rw [List.getElem_map]; rfl, isBytes_tree D _⟩⟩

/-- A record in an object, from its members. -/
theorem record_of {members : List (Option Str × Json)} (hk : ∀ m ∈ members, m.1 ≠ none) (l : List (String × Json))
    (h : ∀ e ∈ l, Once members e.1 e.2) : Record (l.map Prod.fst) (.obj members) (l.map fun e => some e.2) := by
  refine .object _ _ hk (by simp) fun i hi hi' => ?_
  simp only [List.getElem_map]
  exact h _ (List.getElem_mem _)

end KC.Data

namespace KC.Spec.Data
open KC.Data

theorem IsEnvelope.any (D : Base64.Decoder) {version : Nat} {content b : Bytes} (h : IsEnvelope version content b) :
    AnyEnvelope D version content b := by
  obtain ⟨members, hd, hk, h1, h2⟩ := h
  exact ⟨_, _, _, hd, record_of hk [("version", .int version), ("data", bytesTree content)] (by simpa using ⟨h1, h2⟩), rfl,
    isBytes_tree D _⟩

theorem IsV1.any (D : Base64.Decoder) {keys : List (Network × Bytes)} {b : Bytes} (h : IsV1 keys b) : AnyV1 D keys b := by
  obtain ⟨members, hd, hk, h1⟩ := h
  exact ⟨_, _, hd, record_of hk [("keys", keysTree keys)] (by simpa using h1), isKeys_tree D _⟩

theorem IsV2.any (D : Base64.Decoder) {seed mnemonic dictionary} {keys : List (Network × Bytes)} {b : Bytes}
    (h : IsV2 seed mnemonic dictionary keys b) : AnyV2 D seed mnemonic dictionary keys b := by
  obtain ⟨members, hd, hk, h1, h2, h3, h4⟩ := h
  refine ⟨_, optTree bytesTree seed, some (optTree (fun s => .str (some s)) mnemonic),
    some (optTree (fun l => .str (some (langName l).toList)) dictionary), keysTree keys, hd, record_of hk [("seed", _),
    ("mnemonic", optTree (fun s => .str (some s)) mnemonic),
    ("dictionary", optTree (fun l => .str (some (langName l).toList)) dictionary), ("keys", _)]
    (by simpa using ⟨h1, h2, h3, h4⟩), ?_, ?_, ?_, isKeys_tree D _⟩
  · cases seed with
    | none => rfl
    | some s => exact isBytes_tree D _
  · cases mnemonic with
    | none => exact .inr rfl
    | some s => rfl
  · cases dictionary with
    | none => exact .inr rfl
    | some s => exact .inl rfl

end KC.Spec.Data
