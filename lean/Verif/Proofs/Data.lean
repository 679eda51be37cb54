import Verif.Proofs.Json
import Verif.Proofs.Base64
import Verif.Proofs.NMap
import Verif.Model.Data
/-
Reading and writing stored wallets.
-/
namespace KC.Data
open KC.Json (Json)
open KC.Spec.Data KC.Spec.Json
open KC.Mnemonic (Language)

theorem languageName_eq (l : Language) : languageName l = (langName l).toList := by cases l <;> rfl

theorem languageOf_name (l : Language) : languageOf (langName l).toList = some l := by
  cases l <;> decide

theorem bytes_text (d : Nat) (b : Bytes) : Text d (bytesTree b) (writeBytes b) := by
  rw [bytesTree, ← Base64.encode_rfc]
  exact Json.writeStr_text d _

theorem opt_text {α : Type} (d : Nat) (f : α → Bytes) (g : α → Json) (h : ∀ a, Text d (g a) (f a)) (o : Option α) :
    Text d (optTree g o) (writeOpt f o) := by
  cases o with
  | none => exact .null d
  | some a => exact h a

theorem key_text (d : Nat) (e : Network × Bytes) :
    Text (d + 1) (keyTree e) (Json.writeArr [Json.writeNat e.1.toNat, writeBytes e.2]) := by
  have := Json.writeArr_text d (fun x : Json × Bytes => x.2) (fun x => x.1)
    [(.int e.1.toNat, Json.writeNat e.1.toNat), (bytesTree e.2, writeBytes e.2)] (by
      intro x hx
      simp only [List.mem_cons, List.not_mem_nil, or_false] at hx
      rcases hx with rfl | rfl
      · exact Json.writeNat_text d _
      · exact bytes_text d _)
  exact this

theorem keys_text (d : Nat) (it : Iter (Network × Bytes)) (m : NMap Bytes) :
    Text (d + 2) (keysTree (it.order m.entries)) (writeKeys it m) :=
  Json.writeArr_text (d + 1) _ keyTree _ fun e _ => key_text d e

theorem v2_text (d : Nat) (it : Iter (Network × Bytes)) (w : WalletV2) :
    Text (d + 3) (v2Tree w.seed w.mnemonic w.dictionary (it.order w.keys.entries)) (w.toVec it) := by
  have := Json.writeObj_text (d + 2) (fun x : String × Json × Bytes => x.1.toList) (fun x => x.2.2) (fun x => x.2.1)
    [("seed", optTree bytesTree w.seed, writeOpt writeBytes w.seed),
     ("mnemonic", optTree (fun s => .str (some s)) w.mnemonic, writeOpt Json.writeStr w.mnemonic),
     ("dictionary", optTree (fun l => .str (some (langName l).toList)) w.dictionary,
       writeOpt (fun l => Json.writeStr (languageName l)) w.dictionary),
     ("keys", keysTree (it.order w.keys.entries), writeKeys it w.keys)] (by
      intro x hx
      simp only [List.mem_cons, List.not_mem_nil, or_false] at hx
      rcases hx with rfl | rfl | rfl | rfl
      · exact opt_text _ _ _ (bytes_text _) _
      · exact opt_text _ _ _ (Json.writeStr_text _) _
      · exact opt_text _ _ _ (fun l => by rw [languageName_eq]; exact Json.writeStr_text _ _) _
      · exact keys_text d it w.keys)
  exact this

theorem envelope_text (d : Nat) (v : Versioned) : Text (d + 1) (envelopeTree v.version.toNat v.data) v.toBytes := by
  have := Json.writeObj_text d (fun x : String × Json × Bytes => x.1.toList) (fun x => x.2.2) (fun x => x.2.1)
    [("version", .int v.version.toNat, Json.writeNat v.version.toNat), ("data", bytesTree v.data, writeBytes v.data)] (by
      intro x hx
      simp only [List.mem_cons, List.not_mem_nil, or_false] at hx
      rcases hx with rfl | rfl
      · exact Json.writeNat_text d _
      · exact bytes_text d _)
  exact this

/-! ### reading -/

theorem mapM_map_some {α β : Type} (f : β → Option α) (g : α → β) (h : ∀ a, f (g a) = some a) (l : List α) :
    (l.map g).mapM f = some l := by
  induction l with
  | nil => rfl
  | cons a l ih => rw [List.map_cons, List.mapM_cons, h, ih]; rfl

theorem readBytes_tree (D : Base64.Decoder) (b : Bytes) : readBytes D (bytesTree b) = some b := by
  rw [bytesTree, ← Base64.encode_rfc]
  exact D.decode_encode b

theorem readKey_tree (D : Base64.Decoder) (e : Network × Bytes) : readKey D (keyTree e) = some e := by
  have h : (e.1.toNat : Int) ≤ ((4294967295 : Nat) : Int) := by
    have := e.1.toNat_lt
    omega
  simp only [keyTree, readKey, readUInt]
  rw [if_pos ⟨by omega, h⟩, readBytes_tree]
  simp

theorem readKeys_tree (D : Base64.Decoder) (l : List (Network × Bytes)) :
    readKeys D (keysTree l) = some (NMap.ofList l) := by
  simp only [keysTree, readKeys]
  rw [mapM_map_some _ _ (readKey_tree D)]
  rfl

theorem readOpt_tree (D : Base64.Decoder) (o : Option Bytes) : readOptBytes D (optTree bytesTree o) = some o := by
  cases o with
  | none => rfl
  | some b =>
    show (readBytes D (bytesTree b)).map some = _
    rw [readBytes_tree]; rfl

theorem optional_str (o : Option Str) : optional readStr (some (optTree (fun s => .str (some s)) o)) = some o := by
  cases o <;> rfl

theorem optional_lang (o : Option Language) :
    optional readLanguage (some (optTree (fun l => .str (some (langName l).toList)) o)) = some o := by
  cases o with
  | none => rfl
  | some l =>
    show ((languageOf (langName l).toList)).map some = _
    rw [languageOf_name]; rfl

theorem readV2_tree (D : Base64.Decoder) (seed mnemonic dictionary) (keys : List (Network × Bytes)) :
    readV2 D (v2Tree seed mnemonic dictionary keys) = some ⟨seed, mnemonic, dictionary, NMap.ofList keys⟩ := by
  have hf : fields ["seed".toList, "mnemonic".toList, "dictionary".toList, "keys".toList]
      (v2Tree seed mnemonic dictionary keys) =
      some [some (optTree bytesTree seed), some (optTree (fun s => .str (some s)) mnemonic),
        some (optTree (fun l => .str (some (langName l).toList)) dictionary), some (keysTree keys)] := by
    simp [fields, v2Tree, key]
  rw [readV2, hf]
  simp only [Option.bind_eq_bind, Option.bind_some, required, readOpt_tree, optional_str, optional_lang, readKeys_tree]
  rfl

theorem fields_once {l : List (Option Str × Json)} (hk : ∀ m ∈ l, m.1 ≠ none) (js : List (String × Json))
    (h : ∀ e ∈ js, Once l e.1 e.2) :
    fields (js.map fun e => e.1.toList) (.obj l) = some (js.map fun e => some e.2) := by
  have ha : l.any (fun m => m.1.isNone) = false := by
    rw [List.any_eq_false]
    intro m hm
    have := hk m hm
    cases h : m.1 with
    | none => exact absurd h this
    | some _ => simp
  simp only [fields, ha]
  rw [if_neg (by simp)]
  induction js with
  | nil => rfl
  | cons e js ih =>
    rw [List.map_cons, List.mapM_cons, ih fun e he => h e (List.mem_cons_of_mem _ he)]
    have h' : l.filter (fun m => decide (m.1 = some e.1.toList)) = [(key e.1, e.2)] := h e List.mem_cons_self
    rw [h']
    rfl

theorem readV1_once (D : Base64.Decoder) {l : List (Option Str × Json)} (hk : ∀ m ∈ l, m.1 ≠ none)
    {keys : List (Network × Bytes)} (h : Once l "keys" (keysTree keys)) :
    readV1 D (.obj l) = some ⟨NMap.ofList keys⟩ := by
  have hf := fields_once hk [("keys", keysTree keys)] (by simpa using h)
  rw [readV1]
  show (fields ([("keys", keysTree keys)].map fun e => e.1.toList) _).bind _ = _
  rw [hf]
  simp only [List.map_cons, List.map_nil, Option.bind_some, Option.bind_eq_bind, required, readKeys_tree]
  rfl

theorem readV2_once (D : Base64.Decoder) {l : List (Option Str × Json)} (hk : ∀ m ∈ l, m.1 ≠ none)
    {seed mnemonic dictionary} {keys : List (Network × Bytes)} (hs : Once l "seed" (optTree bytesTree seed))
    (hm : Once l "mnemonic" (optTree (fun s => .str (some s)) mnemonic))
    (hd : Once l "dictionary" (optTree (fun l => .str (some (langName l).toList)) dictionary))
    (h : Once l "keys" (keysTree keys)) :
    readV2 D (.obj l) = some ⟨seed, mnemonic, dictionary, NMap.ofList keys⟩ := by
  have hf := fields_once hk [("seed", optTree bytesTree seed), ("mnemonic", optTree (fun s => .str (some s)) mnemonic),
    ("dictionary", optTree (fun l => .str (some (langName l).toList)) dictionary), ("keys", keysTree keys)]
    (by simpa using ⟨hs, hm, hd, h⟩)
  rw [readV2]
  simp only [List.map_cons, List.map_nil] at hf
  rw [hf]
  simp only [Option.bind_eq_bind, Option.bind_some, required, readOpt_tree, optional_str, optional_lang, readKeys_tree]
  rfl

/-- The second step of `fromBytes`. -/
def readEnvelope (D : Base64.Decoder) (j : Json) : Option Versioned := do
  match ← fields ["version".toList, "data".toList] j with
  | [v, d] => do
    let version ← required readVersion v
    let data ← required (readBytes D) d
    return ⟨version, data⟩
  | _ => none

theorem fromBytes_eq (D : Base64.Decoder) (b : Bytes) : Versioned.fromBytes D b = (Json.parse b).bind (readEnvelope D) := rfl

theorem fields_two {l : List (Option Str × Json)} {n n' : Str} {r : List (Option Json)} (h : fields [n, n'] (.obj l) = some r) :
    ∃ a a', r = [a, a'] ∧
      (match l.filter fun m => m.1 = some n with
        | [] => some none
        | [m] => some (some m.2)
        | _ => none) = some a := by
  simp only [fields] at h
  split at h
  · cases h
  · simp only [List.mapM_cons, List.mapM_nil, Option.bind_eq_bind, Option.pure_def, Option.bind_eq_some_iff] at h
    obtain ⟨a, ha, x, ⟨a', -, y, hy, hx⟩, hr⟩ := h
    simp only [Option.some.injEq] at hy hx hr
    subst hy; subst hx; subst hr
    exact ⟨a, a', rfl, ha⟩

theorem readEnvelope_version (D : Base64.Decoder) {l : List (Option Str × Json)} {version : Json}
    (hv : Once l "version" version) (h1 : version ≠ .int 1) (h2 : version ≠ .int 2) : readEnvelope D (.obj l) = none := by
  have hr : readVersion version = none := by
    unfold readVersion readUInt
    cases version with
    | int i =>
      simp only [ne_eq, Json.int.injEq] at h1 h2
      dsimp only
      split
      · simp only [Option.bind_eq_bind, Option.bind_some]
        rw [if_neg (by omega), if_neg (by omega)]
      · rfl
    | _ => rfl
  unfold readEnvelope
  cases hf : fields ["version".toList, "data".toList] (.obj l) with
  | none => rfl
  | some r =>
    obtain ⟨a, a', rfl, ha⟩ := fields_two hf
    have h' : l.filter (fun m => decide (m.1 = some "version".toList)) = [(key "version", version)] := hv
    rw [h'] at ha
    simp only [Option.some.injEq] at ha
    subst ha
    simp only [Option.bind_eq_bind, Option.bind_some, required, hr, Option.bind_none]

theorem readEnvelope_none (D : Base64.Decoder) {l : List (Option Str × Json)}
    (hv : ∀ m ∈ l, m.1 ≠ key "version") : readEnvelope D (.obj l) = none := by
  unfold readEnvelope
  cases hf : fields ["version".toList, "data".toList] (.obj l) with
  | none => rfl
  | some r =>
    obtain ⟨a, a', rfl, ha⟩ := fields_two hf
    have h' : l.filter (fun m => decide (m.1 = some "version".toList)) = [] := by
      rw [List.filter_eq_nil_iff]
      intro m hm
      rw [decide_eq_true_eq]
      exact hv m hm
    rw [h'] at ha
    simp only [Option.some.injEq] at ha
    subst ha
    simp only [Option.bind_eq_bind, Option.bind_some, required, Option.bind_none]

theorem fromBytes_envelope (D : Base64.Decoder) {version : Nat} {content b : Bytes} (h : IsEnvelope version content b) :
    Versioned.fromBytes D b =
      if version = 1 then some ⟨.v1, content⟩ else if version = 2 then some ⟨.v2, content⟩ else none := by
  obtain ⟨l, hd, hk, h1, h2⟩ := h
  have hf := fields_once hk [("version", .int version), ("data", bytesTree content)] (by simpa using ⟨h1, h2⟩)
  rw [Versioned.fromBytes, Json.parse_doc hd]
  show (fields ([("version", Json.int version), ("data", bytesTree content)].map fun e => e.1.toList) _).bind _ = _
  rw [hf]
  simp only [List.map_cons, List.map_nil, Option.bind_some, Option.bind_eq_bind, required, readVersion, readUInt,
    readBytes_tree]
  by_cases hv : version ≤ 65535
  · rw [if_pos ⟨by omega, by omega⟩]
    simp only [Option.bind_some, Int.toNat_natCast]
    split
    · rfl
    · split <;> rfl
  · rw [if_neg (by omega), if_neg (by omega), if_neg (by omega)]
    rfl

end KC.Data
