import Verif.Proofs.Entropy
import Verif.Proofs.Language
import Verif.Spec.Bip39
/-
Properties C05 - C11, C55 (bip39/src/bip39.rs).
-/
namespace KC.Props
open KC.Bip39 KC.Spec KC.Bits
open KC.Mnemonic (Language)

theorem count_mem {n : Nat} : n ∈ wordCounts ↔ ∃ t : MType, t.mnemonicCount = n := by
  constructor
  · intro h
    simp only [wordCounts, List.mem_cons, List.not_mem_nil, or_false] at h
    rcases h with rfl | rfl | rfl | rfl | rfl | rfl
    · exact ⟨.w9, rfl⟩
    · exact ⟨.w12, rfl⟩
    · exact ⟨.w15, rfl⟩
    · exact ⟨.w18, rfl⟩
    · exact ⟨.w21, rfl⟩
    · exact ⟨.w24, rfl⟩
  · rintro ⟨t, rfl⟩
    cases t <;> decide

theorem spec_sizes (t : MType) : entBits t.mnemonicCount = t.toKeySize ∧ csBits t.mnemonicCount = t.checksumSizeBits := by
  cases t <;> decide

/-- C07: word counts. -/
theorem C07_word_count (n : Nat) :
    (∀ t, MType.fromWordCount n = .ok t ↔ n ∈ wordCounts ∧ t.mnemonicCount = n) ∧
    (n ∉ wordCounts → MType.fromWordCount n = .err (.wrongNumberOfWords n)) := by
  refine ⟨fun t => ?_, fun h => fromWordCount_err fun t e => h (count_mem.mpr ⟨t, e⟩)⟩
  rw [fromWordCount_ok]
  exact ⟨fun h => ⟨count_mem.mpr ⟨t, h⟩, h⟩, fun h => h.2⟩

/-- C07: entropy sizes. -/
theorem C07_entropy_size (n : Nat) :
    (∀ t, MType.fromEntropySize n = .ok t ↔ n ∈ [96, 128, 160, 192, 224, 256] ∧ t.toKeySize = n) ∧
    (n ∉ [96, 128, 160, 192, 224, 256] → MType.fromEntropySize n = .err (.wrongKeySize n)) := by
  constructor
  · intro t
    unfold MType.fromEntropySize
    split <;> cases t <;> simp_all [MType.toKeySize] <;> omega
  · intro h
    unfold MType.fromEntropySize
    split <;> simp_all

/-- C07: every supported count and size is reached, and the sizes add up. -/
theorem C07_consistent (t : MType) :
    MType.fromWordCount t.mnemonicCount = .ok t ∧ MType.fromEntropySize t.toKeySize = .ok t ∧
    11 * t.mnemonicCount = t.toKeySize + t.checksumSizeBits ∧ 32 * t.checksumSizeBits = t.toKeySize ∧
    t.toKeySize = entBits t.mnemonicCount ∧ t.checksumSizeBits = csBits t.mnemonicCount := by
  cases t <;> decide

/-- C07: each supported word count is the count of some type. -/
theorem C07_complete (n : Nat) (h : n ∈ wordCounts) : ∃ t, MType.fromWordCount n = .ok t ∧ t.mnemonicCount = n := by
  obtain ⟨t, ht⟩ := count_mem.mp h
  exact ⟨t, fromWordCount_ok.mpr ht, ht⟩

/-- C07: the printed form is the decimal word count, parses back, and nothing else parses. -/
theorem C07_display (t : MType) (s : Str) :
    t.display = Nat.toDigits 10 t.mnemonicCount ∧ (MType.fromStr s = some t ↔ s = t.display) := by
  constructor
  · cases t <;> decide
  · unfold MType.fromStr
    split_ifs <;> cases t <;> simp_all [MType.display]

/-- C05: entropy to phrase never panics, has the right number of in-range words carrying the entropy and checksum. -/
theorem C05_to_mnemonics (P : Hashes) (e : Entropy) :
    ∃ m : Mnemonics, e.toMnemonics P = some m ∧ m.idx.length ∈ wordCounts ∧ entBits m.idx.length = 8 * e.bytes.length ∧
      (∀ i ∈ m.idx, i.toNat ≤ 2047) ∧ Carries P.sha256 m.idx e.bytes := by
  obtain ⟨m, h1, h2, h3, h4⟩ := toMnemonics_spec P e
  obtain ⟨s1, s2⟩ := spec_sizes e.ty
  obtain ⟨a1, a2, -, -⟩ := type_arith e.ty
  have := e.len
  have hent : entBits m.idx.length = 8 * e.bytes.length := by rw [h2, s1]; omega
  exact ⟨m, h1, by rw [h2]; exact count_mem.mpr ⟨_, rfl⟩, hent, h3, by rw [h2, s2]; exact h4, hent.symm⟩

/-- C05: and the phrase gives the entropy back. -/
theorem C05_roundtrip (P : Hashes) (e : Entropy) :
    ∃ m, e.toMnemonics P = some m ∧ Entropy.fromMnemonics P m = .ok e := by
  obtain ⟨m, h1, h2, h3, h4⟩ := toMnemonics_spec P e
  obtain ⟨a1, a2, a3, a4⟩ := type_arith e.ty
  refine ⟨m, h1, ?_⟩
  obtain ⟨e', c1, c2, ht, hb, hc1, hc2, hres⟩ := fromMnemonics_spec P m e.ty h2.symm
  have hlen := e.len
  have hl : (bytesBits e.bytes).length = e.ty.toKeySize := by simp; omega
  have hbytes : e'.bytes = e.bytes := by
    apply bytesBits_inj
    rw [hb, h4, List.take_append_of_le_length (by omega), List.take_of_length_le (by omega)]
  have hee : e' = e := by
    cases e; cases e'; simp only at ht hbytes; subst ht; subst hbytes; rfl
  have hc : c1 = c2 := by
    apply bits8_inj
    rw [hc1, hc2, h4, hbytes, List.drop_append_of_le_length (by omega), List.drop_of_length_le (by omega)]
    simp
  rw [hres, if_pos hc, hee]

/-- Non-vacuity for C05 and C06: an entropy value. -/
example : ∃ e : Entropy, e.ty = .w12 ∧ e.bytes = List.replicate 16 0x7f := ⟨⟨.w12, List.replicate 16 0x7f, rfl⟩, rfl, rfl⟩

/-- C06: a phrase with supported count is accepted exactly when it carries some entropy with a correct checksum,
which is then the result; otherwise the error is `InvalidChecksum`, and the call never panics. -/
theorem C06_exact (P : Hashes) (m : Mnemonics) (hn : m.idx.length ∈ wordCounts) :
    (∀ e : Entropy, Entropy.fromMnemonics P m = .ok e ↔ Carries P.sha256 m.idx e.bytes) ∧
    ((¬ ∃ e, Carries P.sha256 m.idx e) → ∃ c1 c2, Entropy.fromMnemonics P m = .err (.invalidChecksum c1 c2)) := by
  obtain ⟨t, ht⟩ := count_mem.mp hn
  obtain ⟨s1, s2⟩ := spec_sizes t
  obtain ⟨a1, a2, a3, a4⟩ := type_arith t
  obtain ⟨e', c1, c2, hty, hb, hc1, hc2, hres⟩ := fromMnemonics_spec P m t ht
  rw [ht] at s1 s2
  have hwl : (wordsBits m.idx).length = t.toKeySize + t.checksumSizeBits := by simp; omega
  have hiff : c1 = c2 ↔ (bytesBits (P.sha256 e'.bytes)).take t.checksumSizeBits = (wordsBits m.idx).drop t.toKeySize := by
    constructor
    · intro h
      rw [h, hc2] at hc1
      exact (List.append_cancel_left hc1).symm
    · intro h
      apply bits8_inj
      rw [hc1, hc2, h]
  have hcar : c1 = c2 → Carries P.sha256 m.idx e'.bytes := by
    intro h
    have := hiff.mp h
    refine ⟨?_, ?_⟩
    · rw [s2, hb, this, List.take_append_drop]
    · rw [s1]; have := e'.len; rw [hty] at this; omega
  have huniq : ∀ e : List UInt8, Carries P.sha256 m.idx e → e = e'.bytes ∧ c1 = c2 := by
    intro e ⟨h1, h2⟩
    rw [s1] at h2
    rw [s2] at h1
    have hel : (bytesBits e).length = t.toKeySize := by simp; omega
    have he : e = e'.bytes := by
      apply bytesBits_inj
      rw [hb, h1, List.take_append_of_le_length (by omega), List.take_of_length_le (by omega)]
    refine ⟨he, hiff.mpr ?_⟩
    rw [h1, List.drop_append_of_le_length (by omega), List.drop_of_length_le (by omega), he]
    simp
  constructor
  · intro e
    rw [hres]
    constructor
    · intro h
      split at h
      · rename_i hc; cases h; exact hcar hc
      · cases h
    · intro h
      obtain ⟨h1, h2⟩ := huniq _ h
      rw [if_pos h2]
      have h3 := e.len
      congr 1
      have hte : e.ty = e'.ty := by
        rw [hty]
        have h4 := h.2
        rw [s1] at h4
        have : e.ty.toKeySize = t.toKeySize := by
          have := (type_arith e.ty).2.1; omega
        revert this
        cases e.ty <;> cases t <;> simp [MType.toKeySize]
      cases e; cases e'; simp only at h1 hte; subst hte; subst h1; rfl
  · intro h
    refine ⟨c1, c2, ?_⟩
    rw [hres, if_neg]
    intro hc
    exact h ⟨_, hcar hc⟩

/-- C06: an accepted phrase of in-range indices is the one its entropy encodes to. -/
theorem C06_reencode (P : Hashes) (m : Mnemonics) (hn : m.idx.length ∈ wordCounts) (hi : ∀ i ∈ m.idx, i.toNat ≤ 2047)
    (e : Entropy) (h : Entropy.fromMnemonics P m = .ok e) : e.toMnemonics P = some m := by
  have hc := ((C06_exact P m hn).1 e).mp h
  obtain ⟨m', h1, h2, h3, h4, h5⟩ := C05_to_mnemonics P e
  have hlen : m'.idx.length = m.idx.length := by
    have e1 := h5.2; have e2 := hc.2
    rw [e1] at e2
    obtain ⟨t1, q1⟩ := count_mem.mp h2
    obtain ⟨t2, q2⟩ := count_mem.mp hn
    rw [← q1, ← q2] at e2 ⊢
    revert e2
    cases t1 <;> cases t2 <;> decide
  have : m'.idx = m.idx := by
    apply wordsBits_inj (fun x hx => by have := h4 x hx; omega) (fun x hx => by have := hi x hx; omega)
    rw [h5.1, hc.1, hlen]
  cases m; cases m'; simp only at this; subst this; exact h1

/-- C06: for each entropy exactly one in-range phrase is accepted. -/
theorem C06_unique (P : Hashes) (e : Entropy) :
    ∃ m : Mnemonics, (∀ m' : Mnemonics, m'.idx.length ∈ wordCounts → (∀ i ∈ m'.idx, i.toNat ≤ 2047) →
      (Entropy.fromMnemonics P m' = .ok e ↔ m' = m)) := by
  obtain ⟨m, h1, h2⟩ := C05_roundtrip P e
  refine ⟨m, fun m' hn hi => ⟨fun h => ?_, fun h => h ▸ h2⟩⟩
  have := C06_reencode P m' hn hi e h
  rw [h1] at this
  exact (Option.some.inj this).symm

/-- C09: each dictionary has 2048 distinct non-empty words. -/
theorem C09_words (l : Language) :
    l.toDict.words.length = 2048 ∧ l.toDict.words.Nodup ∧ ∀ w ∈ l.toDict.words, w ≠ [] ∧ ' ' ∉ w :=
  ⟨l.toDict.len, l.good.nodup, fun w hw => ⟨l.good.nonEmpty w hw, l.good.noSep w hw⟩⟩

/-- C09: index to word and back is the identity. -/
theorem C09_roundtrip (l : Language) (i : UInt16) (h : i.toNat ≤ 2047) :
    ∃ w, l.toDict.lookupWord i = some w ∧ l.toDict.lookupMnemonic w = .ok i := by
  have hl := l.toDict.len
  have hi : l.toDict.words[i.toNat]? = some l.toDict.words[i.toNat] := List.getElem?_eq_getElem _
  exact ⟨_, hi, lookup_of_get _ l.good.nodup _ _ hi⟩

/-- C09: a word is found exactly when it is in the dictionary, at its place; otherwise the error names it. -/
theorem C09_lookup (l : Language) (w : Str) :
    (∀ i, l.toDict.lookupMnemonic w = .ok i ↔ l.toDict.lookupWord i = some w) ∧
    (w ∈ l.toDict.words → ∃ i, l.toDict.lookupMnemonic w = .ok i ∧ i.toNat ≤ 2047) ∧
    (w ∉ l.toDict.words → l.toDict.lookupMnemonic w = .err (.wordNotFound w)) := by
  refine ⟨fun i => ⟨fun h => (get_of_lookup _ _ _ h).1, fun h => lookup_of_get _ l.good.nodup _ _ h⟩, ?_, ?_⟩
  · intro hw
    rcases lookup_cases l.toDict w with ⟨i, hi, -, hb⟩ | ⟨-, hn⟩
    · exact ⟨i, hi, hb⟩
    · exact absurd hw hn
  · intro hw
    rcases lookup_cases l.toDict w with ⟨i, -, hi, -⟩ | ⟨he, -⟩
    · exact absurd (List.mem_of_getElem? hi) hw
    · exact he

/-- Non-vacuity: first, middle and last words of the English list; a word that is not in it. -/
example : Language.english.toDict.lookupMnemonic "abandon".toList = .ok 0 ∧
    Language.english.toDict.lookupMnemonic "zoo".toList = .ok 2047 ∧
    Language.english.toDict.lookupMnemonic "Zoo".toList = .err (.wordNotFound "Zoo".toList) := by
  refine ⟨?_, ?_, ?_⟩ <;> decide +kernel

/-- C10: `MnemonicIndex::new` accepts exactly 0..=2047. -/
theorem C10_new (m : UInt16) :
    (m.toNat ≤ 2047 → indexNew m = .ok m) ∧ (2047 < m.toNat → indexNew m = .err (.mnemonicOutOfBound m)) :=
  ⟨fun h => indexNew_ok.mpr ⟨h, rfl⟩, indexNew_err⟩

/-- C10: look-up through a checked index is defined; through an unchecked one above 2047 it is not. -/
theorem C10_lookup_defined (l : Language) (m : UInt16) :
    (∃ w, l.toDict.lookupWord m = some w) ↔ ∃ i, indexNew m = .ok i := by
  have hl := l.toDict.len
  constructor
  · intro ⟨w, h⟩
    have := (List.getElem?_eq_some_iff.mp h).1
    exact ⟨m, indexNew_ok.mpr ⟨by omega, rfl⟩⟩
  · intro ⟨i, h⟩
    have := (indexNew_ok.mp h).1
    exact ⟨_, List.getElem?_eq_getElem (by omega)⟩

/-- C10: phrases from text have in-range indices (those from entropy: `C05_to_mnemonics`). -/
theorem C10_from_string (l : Language) (s : Str) (m : Mnemonics) (h : Mnemonics.fromString l.toDict s = .ok m) :
    ∀ i ∈ m.idx, ∃ j, indexNew i = .ok j := by
  simp only [Mnemonics.fromString, Res.bind_eq_ok, fromMnemonics_ok] at h
  obtain ⟨v, h1, rfl, -⟩ := h
  intro i hi
  exact ⟨i, indexNew_ok.mpr ⟨(fromWords_bound _ _ _ h1).2 i hi, rfl⟩⟩

/-- C08: a phrase's text reads back as the phrase. -/
theorem C08_roundtrip (l : Language) (m : Mnemonics) (hn : m.idx.length ∈ wordCounts) (hi : ∀ i ∈ m.idx, i.toNat ≤ 2047) :
    ∃ s, m.toText l.toDict = some s ∧ Mnemonics.fromString l.toDict s = .ok m := by
  obtain ⟨ws, hw⟩ := words_of_indices l.toDict m.idx hi
  have hne : ws ≠ [] := by
    rintro rfl
    have := hw.length_eq
    rw [← this] at hn
    simp [wordCounts] at hn
  refine ⟨_, toText_words _ _ _ hw, ?_⟩
  rw [fromString_ok _ l.good,
    split_intercalate ' ' ws hne (fun w hw' => l.good.noSep w (mem_of_forall2 hw w hw'))]
  exact ⟨hw, count_mem.mp hn⟩

/-- C08: an accepted text is the text of its phrase. -/
theorem C08_canonical (l : Language) (s : Str) (m : Mnemonics) (h : Mnemonics.fromString l.toDict s = .ok m) :
    m.toText l.toDict = some s := by
  rw [fromString_ok _ l.good] at h
  have := toText_words _ _ _ h.1
  rw [split_join] at this
  exact this

/-- C08: no two texts give one phrase. -/
theorem C08_injective (l : Language) (s s' : Str) (m : Mnemonics) (h : Mnemonics.fromString l.toDict s = .ok m)
    (h' : Mnemonics.fromString l.toDict s' = .ok m) : s = s' := by
  have := C08_canonical l s m h
  rw [C08_canonical l s' m h'] at this
  exact (Option.some.inj this).symm

/-- C11: the texts accepted. -/
theorem C11_accept (l : Language) (s : Str) :
    (∃ m, Mnemonics.fromString l.toDict s = .ok m) ↔
      ∃ ws, s = spaced ws ∧ (∀ w ∈ ws, w ∈ l.toDict.words) ∧ ws.length ∈ wordCounts := by
  constructor
  · intro ⟨m, h⟩
    rw [fromString_ok _ l.good] at h
    refine ⟨split ' ' s, (split_join ' ' s).symm, mem_of_forall2 h.1, ?_⟩
    rw [h.1.length_eq]
    exact count_mem.mpr h.2
  · rintro ⟨ws, rfl, hw, hn⟩
    have hne : ws ≠ [] := by rintro rfl; simp [wordCounts] at hn
    obtain ⟨is, his⟩ := fromWords_known l.toDict ws hw
    have hf := (fromWords_ok _ l.good.nodup _ _).mp his
    refine ⟨⟨is⟩, ?_⟩
    rw [fromString_ok _ l.good, spaced, split_intercalate ' ' ws hne (fun w hw' => l.good.noSep w (hw w hw'))]
    refine ⟨hf, count_mem.mp ?_⟩
    rw [← hf.length_eq]; exact hn

/-- C11: the first unknown word is reported, whatever follows and whatever the count. -/
theorem C11_unknown_word (l : Language) (pre post : List Str) (w : Str) (hpre : ∀ x ∈ pre, x ∈ l.toDict.words)
    (hw : w ∉ l.toDict.words) (hs : ' ' ∉ w) (hpost : ∀ x ∈ post, ' ' ∉ x) :
    Mnemonics.fromString l.toDict (spaced (pre ++ w :: post)) = .err (.languageError (.wordNotFound w)) := by
  simp only [Mnemonics.fromString, Dict.separator, spaced]
  rw [split_intercalate ' ' _ (by simp), fromWords_unknown _ _ _ _ hpre hw]
  · rfl
  · intro x hx
    simp only [List.mem_append, List.mem_cons] at hx
    rcases hx with h | rfl | h
    · exact l.good.noSep x (hpre x h)
    · exact hs
    · exact hpost x h

/-- C11: known words in a wrong number. -/
theorem C11_wrong_count (l : Language) (ws : List Str) (h0 : ws ≠ []) (hw : ∀ w ∈ ws, w ∈ l.toDict.words)
    (hn : ws.length ∉ wordCounts) :
    Mnemonics.fromString l.toDict (spaced ws) = .err (.wrongNumberOfWords ws.length) := by
  obtain ⟨is, his⟩ := fromWords_known l.toDict ws hw
  have hlen := (fromWords_bound _ _ _ his).1
  simp only [Mnemonics.fromString, Dict.separator, spaced]
  rw [split_intercalate ' ' ws h0 (fun w hw' => l.good.noSep w (hw w hw')), his]
  simp only [Res.bind_ok, Mnemonics.fromMnemonics, hlen]
  rw [(C07_word_count _).2 hn]; rfl

/-- C11: every text is covered by exactly one of the three cases above: it is the spaced form of its space-free
pieces. -/
theorem C11_pieces (s : Str) : ∃ ws, ws ≠ [] ∧ s = spaced ws ∧ (∀ w ∈ ws, ' ' ∉ w) ∧
    ∀ ws', ws' ≠ [] → s = spaced ws' → (∀ w ∈ ws', ' ' ∉ w) → ws' = ws := by
  refine ⟨split ' ' s, split_ne_nil _ _, (split_join _ _).symm, split_noSep _ _, ?_⟩
  rintro ws' h0 rfl h
  exact (split_intercalate ' ' ws' h0 h).symm

/-- C11: leading, trailing and doubled spaces are rejected: the empty word is in no dictionary. -/
theorem C11_no_extra_space (l : Language) (a b : Str) :
    (∀ m, Mnemonics.fromString l.toDict (' ' :: a) ≠ .ok m) ∧ (∀ m, Mnemonics.fromString l.toDict (a ++ [' ']) ≠ .ok m) ∧
    (∀ m, Mnemonics.fromString l.toDict (a ++ ' ' :: ' ' :: b) ≠ .ok m) := by
  have key : ∀ s, [] ∈ split ' ' s → ∀ m, Mnemonics.fromString l.toDict s ≠ .ok m := by
    intro s hs m h
    rw [fromString_ok _ l.good] at h
    exact l.good.nonEmpty _ (mem_of_forall2 h.1 _ hs) rfl
  have happ : ∀ x y : Str, ∀ z ∈ split ' ' y, z ∈ split ' ' (x ++ ' ' :: y) := by
    intro x y z hz
    induction x with
    | nil => simp [split, hz]
    | cons c x ih =>
      simp only [List.cons_append, split]
      split
      · simp [ih]
      · cases hs : split ' ' (x ++ ' ' :: y) with
        | nil => exact absurd hs (split_ne_nil _ _)
        | cons h t =>
          rw [hs] at ih
          simp only [List.mem_cons] at ih ⊢
          -- the first piece is in front of the separator, so `z` may be taken from the tail
          have htail : ∀ x : Str, ∃ h t, split ' ' (x ++ ' ' :: y) = h :: t ∧ z ∈ t := by
            intro x
            induction x with
            | nil => exact ⟨[], split ' ' y, by simp [split], hz⟩
            | cons c x ih =>
              obtain ⟨h, t, e, hm⟩ := ih
              simp only [List.cons_append, split]
              split
              · exact ⟨[], _, rfl, by rw [e]; simp [hm]⟩
              · exact ⟨c :: h, t, by rw [e], hm⟩
          obtain ⟨h', t', e, hm⟩ := htail x
          rw [hs] at e
          cases e
          exact Or.inr hm
  refine ⟨key _ (by simp [split]), key _ (happ a [] [] (by simp [split])), key _ (happ a _ [] (by simp [split]))⟩

/-- C11: `MnemonicString::new` keeps the text and accepts the same texts. -/
theorem C11_mnemonic_string (l : Language) (s : Str) :
    (∀ s', mnemonicStringNew l.toDict s = .ok s' → s' = s) ∧
    ((∃ s', mnemonicStringNew l.toDict s = .ok s') ↔ ∃ m, Mnemonics.fromString l.toDict s = .ok m) := by
  unfold mnemonicStringNew
  simp only [Res.bind_eq_ok, Res.ok.injEq]
  exact ⟨fun s' ⟨_, _, h⟩ => h.symm, fun ⟨_, m, h, _⟩ => ⟨m, h⟩, fun ⟨m, h⟩ => ⟨s, m, h, rfl⟩⟩

/-- Non-vacuity of C08/C11: a 12-word text is accepted with the indices of its words; adding a space spoils it. -/
example : Mnemonics.fromString Language.english.toDict
      "abandon abandon abandon abandon abandon abandon abandon abandon abandon abandon abandon about".toList =
    .ok ⟨[0, 0, 0, 0, 0, 0, 0, 0, 0, 0, 0, 3]⟩ := by decide +kernel
example : Mnemonics.fromString Language.english.toDict "abandon  about".toList =
    .err (.languageError (.wordNotFound [])) := by decide +kernel
example : Mnemonics.fromString Language.english.toDict "abandon about".toList = .err (.wrongNumberOfWords 2) := by
  decide +kernel

/-- The memory `m` holds `b` from `a` on. -/
def Stored (m : Nat → UInt8) (a : Nat) (b : Bytes) : Prop := ∀ i, i < b.length → m (a + i) = b.getD i 0

theorem getD_replicate {n i : Nat} {v w : UInt8} (h : i < n) : (List.replicate n v).getD i w = v := by
  rw [List.getD_eq_getElem?_getD, List.getElem?_replicate_of_lt h]
  rfl

theorem writeBytes_eq (m : Mem) (p : Nat) (v : UInt8) (n q : Nat) :
    m.writeBytes p v n q = if p ≤ q ∧ q < p + n then v else m q := by
  induction n generalizing m p with
  | zero => rw [Mem.writeBytes, if_neg (by omega)]
  | succ n ih =>
    rw [Mem.writeBytes, ih, Mem.write]
    split_ifs <;> first | rfl | omega

theorem copyFrom_eq (m : Mem) (p : Nat) (n q : Nat) :
    Mem.copyFrom.go m p (List.replicate n 0) q = if p ≤ q ∧ q < p + n then 0 else m q := by
  induction n generalizing m p with
  | zero => rw [List.replicate_zero, Mem.copyFrom.go, if_neg (by omega)]
  | succ n ih =>
    rw [List.replicate_succ, Mem.copyFrom.go, ih, Mem.write]
    split_ifs <;> first | rfl | omega

/-- C55: where an entropy value or a seed was stored there are only zeros after dropping it, and no other memory changes.  (The effect
of the source as written: that the compiler keeps the writes is trusted.) -/
theorem C55_zeroed (m : Nat → UInt8) (a : Nat) (e : Entropy) (s : Seed) :
    (Stored m a e.bytes → Stored (Entropy.dropAt m e.ty a) a (List.replicate e.bytes.length 0) ∧
      ∀ q, q < a ∨ a + e.bytes.length ≤ q → Entropy.dropAt m e.ty a q = m q) ∧
    (Stored m a s.val → ∃ m', Seed.dropAt m a = some m' ∧ Stored m' a (List.replicate s.val.length 0) ∧
      ∀ q, q < a ∨ a + s.val.length ≤ q → m' q = m q) := by
  constructor
  · intro _
    have hz : ∀ q, Entropy.dropAt m e.ty a q = if a ≤ q ∧ q < a + e.bytes.length then 0 else m q := by
      intro q
      rw [e.len]
      cases e.ty <;> exact writeBytes_eq _ _ _ _ _
    constructor
    · intro i hi
      rw [List.length_replicate] at hi
      rw [hz, if_pos (by omega), getD_replicate hi]
    · intro q hq
      rw [hz, if_neg (by omega)]
  · intro _
    have hs : s.val.length = seedSize := s.property
    refine ⟨_, by rw [Seed.dropAt, Mem.copyFrom, if_pos (by simp)], ?_, ?_⟩
    · intro i hi
      rw [List.length_replicate] at hi
      rw [copyFrom_eq, if_pos (by omega), getD_replicate hi]
    · intro q hq
      rw [copyFrom_eq, if_neg (by omega)]

/-- Twelve bytes of entropy at address 100, in a memory of ones. -/
example : Stored (fun _ => 1) 100 (List.replicate 12 1) ∧ Entropy.dropAt (fun _ => 1) .w9 100 111 = 0 ∧
    Entropy.dropAt (fun _ => 1) .w9 100 112 = 1 ∧ Entropy.dropAt (fun _ => 1) .w9 100 99 = 1 := by
  refine ⟨fun i hi => ?_, by decide, by decide, by decide⟩
  rw [List.length_replicate] at hi
  rw [getD_replicate hi]

end KC.Props
