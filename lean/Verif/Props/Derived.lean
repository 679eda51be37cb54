import Verif.Proofs.Derived
import Verif.Props.Bip39
import Verif.Real.Hashes
/-
C89: the derived text forms and orders of the types of bip39.
-/
namespace KC.Props
open KC.Bip39 KC.Derived KC.Spec KC.Spec.Derived
open KC.Spec.Json (Doc)
open KC.Spec.Bip32 (be)
open KC.Mnemonic (Language)

private theorem parse_iff {b : Bytes} {j : KC.Json.Json} : KC.Json.parse b = some j ↔ Doc j b :=
  ⟨KC.Json.doc_parse, KC.Json.parse_doc⟩

private theorem bind_parse {α : Type} {f : KC.Json.Json → Option α} {b : Bytes} {a : α} :
    (KC.Json.parse b).bind f = some a ↔ ∃ j, Doc j b ∧ f j = some a := by
  rw [Option.bind_eq_some_iff]
  simp only [parse_iff]

private theorem typeOf_iff {s : Str} {t : MType} : typeOf s = some t ↔ ∃ n, (t.mnemonicCount, n) ∈ typeNames ∧ s = n.toList := by
  constructor
  · intro h
    have h1 := List.find?_some h
    rw [decide_eq_true_eq] at h1
    subst h1
    cases t
    · exact ⟨"Type9Words", by simp [typeNames, MType.mnemonicCount], rfl⟩
    · exact ⟨"Type12Words", by simp [typeNames, MType.mnemonicCount], rfl⟩
    · exact ⟨"Type15Words", by simp [typeNames, MType.mnemonicCount], rfl⟩
    · exact ⟨"Type18Words", by simp [typeNames, MType.mnemonicCount], rfl⟩
    · exact ⟨"Type21Words", by simp [typeNames, MType.mnemonicCount], rfl⟩
    · exact ⟨"Type24Words", by simp [typeNames, MType.mnemonicCount], rfl⟩
  · rintro ⟨n, h, rfl⟩
    cases t <;> simp [typeNames, MType.mnemonicCount] at h <;> subst h <;> decide +kernel

/-- C89: the text of a `Type` is its name; it reads back; and what is read as a `Type` is just its name, or an object with it. -/
theorem C89_type (t : MType) (b : Bytes) :
    (∃ n, (t.mnemonicCount, n) ∈ typeNames ∧ Doc (.str (some n.toList)) (writeType t)) ∧ readType (writeType t) = some t ∧
    (readType b = some t ↔ ∃ j, Doc j b ∧ TypeTree t.mnemonicCount j) := by
  have iff : ∀ b, readType b = some t ↔ ∃ j, Doc j b ∧ TypeTree t.mnemonicCount j := by
    intro b
    unfold readType
    rw [bind_parse]
    refine exists_congr fun j => and_congr_right fun _ => ?_
    constructor
    · intro h
      unfold typeOfTree at h
      split at h
      · obtain ⟨s, rfl, h⟩ := Option.bind_eq_some_iff.mp h
        obtain ⟨n, hn, rfl⟩ := typeOf_iff.mp h
        exact .name _ _ hn
      · obtain ⟨s, rfl, h⟩ := Option.bind_eq_some_iff.mp h
        obtain ⟨n, hn, rfl⟩ := typeOf_iff.mp h
        exact .member _ _ hn
      · cases h
    · generalize hk : t.mnemonicCount = k
      intro h
      cases h with
      | name s h => exact typeOf_iff.mpr ⟨s, hk ▸ h, rfl⟩
      | member s h => exact typeOf_iff.mpr ⟨s, hk ▸ h, rfl⟩
  have hw : ∃ n, (t.mnemonicCount, n) ∈ typeNames ∧ Doc (.str (some n.toList)) (writeType t) := by
    obtain ⟨n, hn, e⟩ := typeOf_iff.mp (show typeOf (typeName t) = some t by cases t <;> decide +kernel)
    exact ⟨n, hn, e ▸ KC.Json.doc_of_text (KC.Json.writeStr_text 127 _)⟩
  refine ⟨hw, ?_, iff b⟩
  obtain ⟨n, hn, hd⟩ := hw
  exact (iff _).mpr ⟨_, hd, .name _ _ hn⟩

/-- C89: the text of a `MnemonicString` is a JSON string of it; it reads back; and what is read is just the strings. -/
theorem C89_string (s : Str) (b : Bytes) :
    Doc (.str (some s)) (writeString s) ∧ readString (writeString s) = some s ∧ (readString b = some s ↔ Doc (.str (some s)) b) := by
  have iff : ∀ b, readString b = some s ↔ Doc (.str (some s)) b := by
    intro b
    unfold readString
    rw [bind_parse]
    constructor
    · rintro ⟨j, hd, h⟩
      unfold Data.readStr at h
      split at h
      · subst h; exact hd
      · cases h
    · intro h; exact ⟨_, h, rfl⟩
  have hd : Doc (.str (some s)) (writeString s) := KC.Json.doc_of_text (KC.Json.writeStr_text 127 _)
  exact ⟨hd, (iff _).mpr hd, iff b⟩

/-- C89: reading does not validate.  What `MnemonicString::new` would refuse in every language can be read; what it accepted stays accepted
over writing and reading. -/
theorem C89_unvalidated :
    (∀ s, ∃ b, readString b = some s) ∧
    (∀ b s, readString b = some s → ∀ l : Language, (∃ s', mnemonicStringNew l.toDict s = .ok s') ↔
      ∃ ws, s = spaced ws ∧ (∀ w ∈ ws, w ∈ l.toDict.words) ∧ ws.length ∈ wordCounts) ∧
    ∃ b s, readString b = some s ∧ ∀ (l : Language) s', mnemonicStringNew l.toDict s ≠ .ok s' := by
  refine ⟨fun s => ⟨_, (C89_string s []).2.1⟩, fun b s _ l => (C11_mnemonic_string l s).2.trans (C11_accept l s), _, [], (C89_string [] []).2.1, ?_⟩
  intro l s' h
  obtain ⟨ws, e, hw, hn⟩ := (C11_accept l []).mp ((C11_mnemonic_string l []).2.mp ⟨s', h⟩)
  match ws, hn with
  | [], hn => simp [wordCounts] at hn
  | [a], hn => simp [wordCounts] at hn
  | a :: b :: r, _ => simp [spaced, List.intercalate] at e

/-- C89: errors of dictionaries and of hexadecimal text. -/
theorem C89_errors (b : Bytes) :
    (∀ w, Doc (single "MnemonicWordNotFoundInDictionary" (.str (some w))) (writeDictError (.wordNotFound w)) ∧
      readDictError (writeDictError (.wordNotFound w)) = some (.wordNotFound w) ∧
      (readDictError b = some (.wordNotFound w) ↔ Doc (single "MnemonicWordNotFoundInDictionary" (.str (some w))) b)) ∧
    ∀ i : Nat, Doc (single "UnknownSymbol" (.int i)) (writeHexError (.unknownSymbol i)) ∧
      (i < 2 ^ 64 → readHexError (writeHexError (.unknownSymbol i)) = some (.unknownSymbol i)) ∧
      (readHexError b = some (.unknownSymbol i) ↔ i < 2 ^ 64 ∧ Doc (single "UnknownSymbol" (.int i)) b) := by
  constructor
  · intro w
    have iff : ∀ b, readDictError b = some (.wordNotFound w) ↔ Doc (single "MnemonicWordNotFoundInDictionary" (.str (some w))) b := by
      intro b
      unfold readDictError
      rw [bind_parse]
      constructor
      · rintro ⟨j, hd, h⟩
        unfold dictErrorOfTree at h
        split at h
        · split at h
          · rename_i s j' hs
            obtain ⟨x, hx, e⟩ := Option.map_eq_some_iff.mp h
            cases e
            unfold Data.readStr at hx
            split at hx
            · subst hx; subst hs; exact hd
            · cases hx
          · cases h
        · cases h
      · intro h
        exact ⟨_, h, (dictErrorOfTree.eq_1 _ _).trans (if_pos rfl)⟩
    have hd : Doc (single "MnemonicWordNotFoundInDictionary" (.str (some w))) (writeDictError (.wordNotFound w)) :=
      KC.Json.doc_of_text (KC.Json.writeObj_text 126 (fun _ : Unit => dictErrorName) (fun _ => KC.Json.writeStr w) (fun _ => .str (some w)) [()]
        fun _ _ => KC.Json.writeStr_text _ _)
    exact ⟨hd, (iff _).mpr hd, iff b⟩
  · intro i
    have iff : ∀ b, readHexError b = some (.unknownSymbol i) ↔ i < 2 ^ 64 ∧ Doc (single "UnknownSymbol" (.int i)) b := by
      intro b
      unfold readHexError
      rw [bind_parse]
      constructor
      · rintro ⟨j, hd, h⟩
        unfold hexErrorOfTree at h
        split at h
        · split at h
          · rename_i s j' hs
            obtain ⟨x, hx, e⟩ := Option.map_eq_some_iff.mp h
            cases e
            unfold Data.readUInt at hx
            split at hx
            · split at hx
              · rename_i k hk
                cases hx
                subst hs
                refine ⟨by omega, ?_⟩
                rw [Int.toNat_of_nonneg hk.1]
                exact hd
              · cases hx
            · cases hx
          · cases h
        · cases h
      · rintro ⟨hi, h⟩
        refine ⟨_, h, ?_⟩
        have : (i : Int) ≤ 18446744073709551615 := by omega
        refine ((hexErrorOfTree.eq_1 _ _).trans (if_pos rfl)).trans ?_
        simp [Data.readUInt, this]
    have hd : Doc (single "UnknownSymbol" (.int i)) (writeHexError (.unknownSymbol i)) :=
      KC.Json.doc_of_text (KC.Json.writeObj_text 126 (fun _ : Unit => hexErrorName) (fun _ => KC.Json.writeNat i) (fun _ => .int i) [()]
        fun _ _ => KC.Json.writeNat_text _ _)
    exact ⟨hd, fun hi => (iff _).mpr ⟨hi, hd⟩, iff b⟩

/-- C89: the order of types is that of the word counts, of indices that of their numbers, of texts that of the code points. -/
theorem C89_orders :
    (∀ t u, cmpType t u = .lt ↔ t.mnemonicCount < u.mnemonicCount) ∧
    (∀ i j, cmpIndex i j = .lt ↔ i.toNat < j.toNat) ∧
    (∀ s t, cmpString s t = .lt ↔ Before s t) ∧
    (∀ s t, cmpDictError (.wordNotFound s) (.wordNotFound t) = .lt ↔ Before s t) ∧
    (∀ i j, cmpHexError (.unknownSymbol i) (.unknownSymbol j) = .lt ↔ i < j) := by
  refine ⟨fun t u => ?_, fun i j => cmpNat_lt, fun s t => cmpText_lt, fun s t => cmpText_lt, fun i j => cmpNat_lt⟩
  rw [cmpType, cmpNat_lt]
  cases t <;> cases u <;> decide

private theorem place_len {a b : Entropy} :
    (typePlace a.ty < typePlace b.ty ↔ a.bytes.length < b.bytes.length) ∧ (typePlace a.ty = typePlace b.ty ↔ a.bytes.length = b.bytes.length) := by
  rw [a.len, b.len]
  cases a.ty <;> cases b.ty <;> decide

/-- C89: the order of entropies is by length, then as numbers. -/
theorem C89_entropy_order (a b : Entropy) : cmpEntropy a b = .lt ↔
    a.bytes.length < b.bytes.length ∨ a.bytes.length = b.bytes.length ∧ be a.bytes < be b.bytes := by
  rw [cmpEntropy, then_lt, cmpNat_lt, cmpNat_eq, place_len.1, place_len.2]
  refine or_congr_right (and_congr_right fun h => cmpBytes_be h)

/-- C89: two values are equal in these orders just if they are the same, and the other way round the result is the opposite. -/
theorem C89_total :
    (∀ t u, (cmpType t u = .eq ↔ t = u) ∧ (cmpType t u).swap = cmpType u t) ∧
    (∀ i j, (cmpIndex i j = .eq ↔ i = j) ∧ (cmpIndex i j).swap = cmpIndex j i) ∧
    (∀ s t, (cmpString s t = .eq ↔ s = t) ∧ (cmpString s t).swap = cmpString t s) ∧
    (∀ d e, (cmpDictError d e = .eq ↔ d = e) ∧ (cmpDictError d e).swap = cmpDictError e d) ∧
    (∀ d e, (cmpHexError d e = .eq ↔ d = e) ∧ (cmpHexError d e).swap = cmpHexError e d) ∧
    (∀ a b, (cmpEntropy a b = .eq ↔ a = b) ∧ (cmpEntropy a b).swap = cmpEntropy b a) := by
  refine ⟨fun t u => ⟨?_, cmpNat_swap _ _⟩, fun i j => ⟨cmpNat_eq.trans UInt16.toNat_inj, cmpNat_swap _ _⟩, fun s t => ⟨cmpText_eq, cmpText_swap _ _⟩, ?_, ?_, ?_⟩
  · rw [cmpType, cmpNat_eq]
    cases t <;> cases u <;> decide
  · rintro ⟨s⟩ ⟨t⟩
    rw [DictError.wordNotFound.injEq]
    exact ⟨cmpText_eq, cmpText_swap _ _⟩
  · rintro ⟨i⟩ ⟨j⟩
    rw [Hex.Error.unknownSymbol.injEq]
    exact ⟨cmpNat_eq, cmpNat_swap _ _⟩
  · intro a b
    constructor
    · rw [cmpEntropy, then_eq, cmpNat_eq, cmpBytes_eq]
      constructor
      · rintro ⟨h1, h2⟩
        obtain ⟨t, x, h⟩ := a
        obtain ⟨u, y, h'⟩ := b
        have : t = u := by
          replace h1 : typePlace t = typePlace u := h1
          clear h2 h h'
          revert h1
          cases t <;> cases u <;> decide
        cases this
        cases h2
        rfl
      · rintro rfl; exact ⟨rfl, rfl⟩
    · rw [cmpEntropy, then_swap, cmpNat_swap, cmpBytes_swap]; rfl

/-- C89: a smaller entropy has the smaller phrase: fewer words, or as many and a smaller index at the first different word. -/
theorem C89_phrase_order (P : Hashes) (a b : Entropy) (m n : Mnemonics) (ha : a.toMnemonics P = some m) (hb : b.toMnemonics P = some n) :
    cmpEntropy a b = .lt ↔ m.idx.length < n.idx.length ∨ m.idx.length = n.idx.length ∧ Less (m.idx.map UInt16.toNat) (n.idx.map UInt16.toNat) := by
  obtain ⟨m', h1, h2, h3, h4, h5⟩ := C05_to_mnemonics P a
  obtain ⟨n', k1, k2, k3, k4, k5⟩ := C05_to_mnemonics P b
  cases ha.symm.trans h1
  cases hb.symm.trans k1
  rw [C89_entropy_order]
  have hlen : (a.bytes.length < b.bytes.length ↔ m.idx.length < n.idx.length) ∧ (a.bytes.length = b.bytes.length ↔ m.idx.length = n.idx.length) := by
    obtain ⟨x, hx⟩ : ∃ x, m.idx.length = 3 * x := by
      simp only [wordCounts, List.mem_cons, List.not_mem_nil, or_false] at h2; exact ⟨m.idx.length / 3, by omega⟩
    obtain ⟨y, hy⟩ : ∃ y, n.idx.length = 3 * y := by
      simp only [wordCounts, List.mem_cons, List.not_mem_nil, or_false] at k2; exact ⟨n.idx.length / 3, by omega⟩
    unfold entBits at h3 k3
    rw [hx] at h3 ⊢
    rw [hy] at k3 ⊢
    omega
  rw [hlen.1, hlen.2]
  refine or_congr_right (and_congr_right fun hl => ?_)
  by_cases he : a.bytes = b.bytes
  · have : m = n := by
      obtain ⟨t, x, h⟩ := a
      obtain ⟨u, y, h'⟩ := b
      simp only at he
      subst he
      have : t = u := by
        rw [h] at h'
        clear h h1 h2 h3 h4 h5 k1 k2 k3 k4 k5 hlen ha hb
        revert h'
        cases t <;> cases u <;> decide
      subst this
      exact Option.some.inj (ha.symm.trans hb)
    subst this
    rw [he]
    refine ⟨fun h => absurd h (lt_irrefl _), fun h => ?_⟩
    have irr : ∀ l, ¬ Less l l := by
      intro l
      induction l with
      | nil => nofun
      | cons x l ih =>
        intro h
        cases h with
        | head _ _ _ _ h => exact absurd h (lt_irrefl _)
        | tail _ _ _ h => exact ih h
    exact absurd h (irr _)
  · refine carries_less h5 k5 (fun i hi => ?_) (fun i hi => ?_) hl ?_ he
    · have := h4 i hi; omega
    · have := k4 i hi; omega
    · simp [P.sha256_len]

/-- C89, cases: texts as written and as others may write them; "{" with a null; an unvalidated text; the order of "z", "é" and "日". -/
theorem C89_case :
    writeType .w12 = Str.utf8 "\"Type12Words\"".toList ∧
    readType (Str.utf8 " { \"Type24Words\" : null }".toList) = some .w24 ∧ readType (Str.utf8 "\"Type10Words\"".toList) = none ∧
    readType (Str.utf8 "12".toList) = none ∧
    readString (Str.utf8 "\"not a phr\\u0061se\"".toList) = some "not a phrase".toList ∧ readString (Str.utf8 "[\"abandon\"]".toList) = none ∧
    writeDictError (.wordNotFound "x\"".toList) = Str.utf8 "{\"MnemonicWordNotFoundInDictionary\":\"x\\\"\"}".toList ∧
    readHexError (Str.utf8 "{\"UnknownSymbol\":18446744073709551615}".toList) = some (.unknownSymbol 18446744073709551615) ∧
    readHexError (Str.utf8 "{\"UnknownSymbol\":18446744073709551616}".toList) = none ∧
    readHexError (Str.utf8 "{\"UnknownSymbol\":1,\"UnknownSymbol\":1}".toList) = none ∧
    cmpString "z".toList "é".toList = .lt ∧ cmpString "é".toList "日".toList = .lt ∧ cmpString "zoo".toList "zo".toList = .gt ∧
    cmpType .w24 .w9 = .gt := by decide +kernel

/-- C89, a case of the order of phrases: "legal winner …" and "letter advice …". -/
theorem C89_phrase_case : ∃ a b m n, cmpEntropy a b = .lt ∧ a.bytes = List.replicate 16 0x7f ∧ b.bytes = List.replicate 16 0x80 ∧
    a.toMnemonics Real.hashes = some m ∧ b.toMnemonics Real.hashes = some n ∧
    m.idx = [1019, 2015, 1790, 2039, 1983, 1533, 2031, 1919, 1019, 2015, 1790, 2040] ∧
    n.idx = [1028, 32, 257, 8, 64, 514, 16, 128, 1028, 32, 257, 4] ∧ Less (m.idx.map UInt16.toNat) (n.idx.map UInt16.toNat) := by
  refine ⟨⟨.w12, List.replicate 16 0x7f, by decide⟩, ⟨.w12, List.replicate 16 0x80, by decide⟩, _, _, by decide, rfl, rfl,
    (by decide +kernel : _ = some (⟨[1019, 2015, 1790, 2039, 1983, 1533, 2031, 1919, 1019, 2015, 1790, 2040]⟩ : Mnemonics)),
    (by decide +kernel : _ = some (⟨[1028, 32, 257, 8, 64, 514, 16, 128, 1028, 32, 257, 4]⟩ : Mnemonics)), rfl, rfl, .head _ _ _ _ (by decide)⟩

end KC.Props
