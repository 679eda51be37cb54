import Verif.Proofs.Custom
import Verif.Proofs.Passwords
import Verif.Props.Bip39
import Verif.Proofs.Language
/-
C103: dictionaries of the caller.
-/
namespace KC.Props
open KC.Bip39 KC.Spec
open KC.Mnemonic (Language)

/-- C103: a text is cut where the separator occurs first, then behind it again; there is exactly one way to do so. -/
theorem C103_cut (sep : Str) (h : sep ≠ []) (s : Str) (ws : List Str) :
    (splitBy sep s = ws ↔ Pieces sep s ws) ∧ (Pieces sep s ws → s = sep.intercalate ws) :=
  ⟨splitBy_iff h s ws, fun hp => (pieces_join hp).1⟩

/-- C103: the crate's own dictionaries are an instance. -/
theorem C103_default (d : Dict) (s : Str) (m : Mnemonics) :
    d.toLang.fromString s = Mnemonics.fromString d s ∧ d.toLang.toText m = m.toText d ∧
    d.toLang.mnemonicStringNew s = mnemonicStringNew d s := by
  have hw : ∀ ws, d.toLang.fromWords ws = fromWords d ws := by
    intro ws
    induction ws with
    | nil => rfl
    | cons w ws ih => rw [Lang.fromWords, fromWords, ih]; rfl
  have hs : ∀ s, d.toLang.fromString s = Mnemonics.fromString d s := by
    intro s
    rw [Lang.fromString, Mnemonics.fromString, hw, show d.toLang.separator = [d.separator] from rfl, split_splitBy]
  have ht : ∀ is b, d.toLang.toStringLoop is b = toStringLoop d is b := by
    intro is
    induction is with
    | nil => intro b; rfl
    | cons i is ih =>
      intro b
      rw [Lang.toStringLoop, toStringLoop, ih]
      have : d.toLang.toWord i = d.lookupWord i := by
        rw [Lang.toWord, show d.toLang.lookupWord i = Res.ofPanic (d.lookupWord i) from rfl]
        cases d.lookupWord i <;> rfl
      rw [this]
      rfl
  exact ⟨hs s, ht m.idx true, by rw [Lang.mnemonicStringNew, mnemonicStringNew, hs]⟩

/-- C103: a text is accepted exactly if the dictionary knows each of its pieces and their number is allowed, and then the indices are those the
dictionary gave, in order. -/
theorem C103_accept (L : Lang) (hs : L.separator ≠ []) (s : Str) (m : Mnemonics) :
    L.fromString s = .ok m ↔
      ∃ ws, Pieces L.separator s ws ∧ List.Forall₂ (fun w i => L.lookupMnemonic w = .ok i) ws m.idx ∧ m.idx.length ∈ wordCounts := by
  simp only [Lang.fromString, Res.bind_eq_ok, fromMnemonics_ok, Lang.fromWords_ok]
  constructor
  · rintro ⟨v, h1, rfl, h3⟩
    exact ⟨_, (splitBy_iff hs s _).mp rfl, h1, count_mem.mpr h3⟩
  · rintro ⟨ws, h1, h2, h3⟩
    exact ⟨m.idx, ((splitBy_iff hs s ws).mpr h1) ▸ h2, rfl, count_mem.mp h3⟩

/-- C103: otherwise the first piece that the dictionary refuses is reported with the dictionary's error, or panics with it; if it knows all, the
wrong number of pieces is reported. -/
theorem C103_refuse (L : Lang) (hs : L.separator ≠ []) (s : Str) :
    (∀ pre w post, Pieces L.separator s (pre ++ w :: post) → (∀ x ∈ pre, ∃ i, L.lookupMnemonic x = .ok i) →
      (∀ e, L.lookupMnemonic w = .err e → L.fromString s = .err (.languageError e)) ∧
      (L.lookupMnemonic w = .panic → L.fromString s = .panic)) ∧
    (∀ ws, Pieces L.separator s ws → (∀ x ∈ ws, ∃ i, L.lookupMnemonic x = .ok i) → ws.length ∉ wordCounts →
      L.fromString s = .err (.wrongNumberOfWords ws.length)) := by
  refine ⟨fun pre w post hp hk => ?_, fun ws hp hk hn => ?_⟩
  · obtain ⟨h1, h2⟩ := L.fromWords_stop pre w post hk
    refine ⟨fun e he => ?_, fun he => ?_⟩
    · rw [Lang.fromString, (splitBy_iff hs s _).mpr hp, h1 e he]; rfl
    · rw [Lang.fromString, (splitBy_iff hs s _).mpr hp, h2 he]; rfl
  · obtain ⟨is, hi⟩ : ∃ is, List.Forall₂ (fun w i => L.lookupMnemonic w = .ok i) ws is := by
      clear hp hn
      induction ws with
      | nil => exact ⟨[], .nil⟩
      | cons w ws ih =>
        obtain ⟨i, hi⟩ := hk w (by simp)
        obtain ⟨is, his⟩ := ih fun x hx => hk x (by simp [hx])
        exact ⟨i :: is, .cons hi his⟩
    rw [Lang.fromString, (splitBy_iff hs s _).mpr hp, (L.fromWords_ok ws is).mpr hi, Res.bind_ok, Mnemonics.fromMnemonics, ← hi.length_eq,
      fromWordCount_err fun t ht => hn (count_mem.mpr ⟨t, ht⟩)]
    rfl

/-- C103: the text of a phrase is the dictionary's words with its separator between them; it is a panic exactly if the dictionary has no word for
one of the indices. -/
theorem C103_text (L : Lang) (m : Mnemonics) :
    (∀ ws, List.Forall₂ (fun i w => L.lookupWord i = .ok w) m.idx ws → L.toText m = some (L.separator.intercalate ws)) ∧
    (L.toText m = none ↔ ∃ i ∈ m.idx, ∀ w, L.lookupWord i ≠ .ok w) :=
  ⟨fun ws h => L.toText_some m.idx ws h, L.toStringLoop_none m.idx true⟩

/-- C103: words put together with the separator are cut apart into the same words exactly if in each but the last, with the separator behind it,
the separator occurs at the end only, and in the last not at all.  (That no word contains the separator is not enough, see the cases.) -/
theorem C103_cut_back (sep : Str) (h : sep ≠ []) (ws : List Str) (w : Str) :
    splitBy sep (sep.intercalate (ws ++ [w])) = ws ++ [w] ↔ (∀ x ∈ ws, Clean sep x) ∧ Free sep w :=
  (splitBy_iff h _ _).trans (join_pieces sep ws w)

/-- C103: so a phrase is read back from its text if the dictionary finds its own words again and they are of that kind. -/
theorem C103_round (L : Lang) (hs : L.separator ≠ []) (m : Mnemonics) (hn : m.idx.length ∈ wordCounts)
    (hi : ∀ i ∈ m.idx, ∃ w, L.lookupWord i = .ok w ∧ L.lookupMnemonic w = .ok i ∧ Clean L.separator w ∧ Free L.separator w) :
    ∃ t, L.toText m = some t ∧ L.fromString t = .ok m := by
  obtain ⟨ws, h1, h2, h3⟩ : ∃ ws, List.Forall₂ (fun i w => L.lookupWord i = .ok w) m.idx ws ∧
      List.Forall₂ (fun w i => L.lookupMnemonic w = .ok i) ws m.idx ∧ ∀ w ∈ ws, Clean L.separator w ∧ Free L.separator w := by
    generalize m.idx = is at hi
    clear hn
    induction is with
    | nil => exact ⟨[], .nil, .nil, by simp⟩
    | cons i is ih =>
      obtain ⟨w, a1, a2, a3⟩ := hi i (by simp)
      obtain ⟨ws, b1, b2, b3⟩ := ih fun j hj => hi j (by simp [hj])
      exact ⟨w :: ws, .cons a1 b1, .cons a2 b2, by simpa using ⟨a3, b3⟩⟩
  refine ⟨_, (C103_text L m).1 ws h1, (C103_accept L hs _ m).mpr ⟨ws, ?_, h2, hn⟩⟩
  have hne : ws ≠ [] := by
    rintro rfl
    rw [List.forall₂_nil_left_iff.mp h2] at hn
    revert hn
    decide
  obtain ⟨l, w, rfl⟩ : ∃ l w, ws = l ++ [w] := ⟨ws.dropLast, ws.getLast hne, (List.dropLast_append_getLast hne).symm⟩
  exact (join_pieces _ l w).mpr ⟨fun x hx => (h3 x (by simp [hx])).1, (h3 w (by simp)).2⟩

/-- C103: with the empty separator nothing is accepted by a dictionary that does not know the empty word, not even the texts of its own phrases:
every text is reported with the error for the empty word. -/
theorem C103_empty (L : Lang) (hs : L.separator = []) (e : DictError) (he : L.lookupMnemonic [] = .err e) (s : Str) :
    L.fromString s = .err (.languageError e) := by
  rw [Lang.fromString, splitBy, if_pos hs]
  have := (L.fromWords_stop [] [] (s.map (fun c => [c]) ++ [[]]) (by simp)).1 e he
  rw [List.nil_append] at this
  rw [List.cons_append, this]
  rfl

/-- C103: a checked string keeps the text that was given.  So a dictionary that knows several spellings of its words gives one phrase and one
entropy for two spellings, but two strings, and their seeds are PBKDF2 of different bytes. -/
theorem C103_spellings (L : Lang) (s s' : Str) (m : Mnemonics) (h : L.fromString s = .ok m) (h' : L.fromString s' = .ok m) (hne : s ≠ s')
    (H : Hashes) (pass : Bytes) :
    L.mnemonicStringNew s = .ok s ∧ L.mnemonicStringNew s' = .ok s' ∧ Str.utf8 s ≠ Str.utf8 s' ∧
    (Seed.fromMnemonicString H s pass).val = H.pbkdf2 (Str.utf8 s) (Str.utf8 "mnemonic".toList ++ pass) 2048 64 ∧
    (Seed.fromMnemonicString H s' pass).val = H.pbkdf2 (Str.utf8 s') (Str.utf8 "mnemonic".toList ++ pass) 2048 64 := by
  refine ⟨?_, ?_, fun e => hne (Passwords.utf8_inj e), rfl, rfl⟩
  · rw [Lang.mnemonicStringNew, h]; rfl
  · rw [Lang.mnemonicStringNew, h']; rfl

/-- C103: an index above 2047 from a dictionary of the caller is accepted as it is; the crate's own dictionaries then read out of bounds (`none`),
while the entropy is that of the index modulo 2048. -/
theorem C103_index (L : Lang) (hs : L.separator ≠ []) (s : Str) (m : Mnemonics) (h : L.fromString s = .ok m) (i : UInt16) (hi : i ∈ m.idx)
    (hb : 2047 < i.toNat) (P : Hashes) :
    (∀ l : Language, m.toText l.toDict = none) ∧
    Entropy.fromMnemonics P m = Entropy.fromMnemonics P ⟨m.idx.map (· % 2048)⟩ := by
  obtain ⟨-, -, -, hn⟩ := (C103_accept L hs s m).mp h
  constructor
  · intro l
    rw [← (C103_default l.toDict s m).2.1, (C103_text _ m).2]
    refine ⟨i, hi, fun w hw => ?_⟩
    have : l.toDict.words[i.toNat]? = none := List.getElem?_eq_none (by rw [l.toDict.len]; omega)
    rw [show l.toDict.toLang.lookupWord i = Res.ofPanic (l.toDict.words[i.toNat]?) from rfl, this] at hw
    cases hw
  · have hw : (Bits.Writer.new.writeAll m.idx).map Bits.Writer.toBytes =
        (Bits.Writer.new.writeAll (m.idx.map (· % 2048))).map Bits.Writer.toBytes := by
      obtain ⟨w, pad, h1, h2, h3⟩ := C01_pack m.idx
      obtain ⟨w', pad', h1', h2', h3'⟩ := C01_pack (m.idx.map (· % 2048))
      rw [Bits.wordsBits_mod] at h3'
      have l1 := congrArg List.length h3
      have l2 := congrArg List.length h3'
      simp at l1 l2
      obtain rfl : pad = pad' := by omega
      rw [h1, h1', Option.map_some, Option.map_some, bytesBits_inj (h3.trans h3'.symm)]
    obtain ⟨w, -, h1, -⟩ := C01_pack m.idx
    obtain ⟨w', -, h1', -⟩ := C01_pack (m.idx.map (· % 2048))
    rw [h1, h1', Option.map_some, Option.map_some, Option.some.injEq] at hw
    simp only [Entropy.fromMnemonics, Mnemonics.getType, List.length_map, h1, h1', Res.ofPanic, Res.bind_ok, hw]

/-! ### Cases -/

/-- The words of a dictionary of the crate with another separator. -/
def withSep (d : Dict) (sep : Str) : Lang := { d.toLang with separator := sep }

theorem withSep_words (d : Dict) (hg : d.Good) (sep : Str) (i : UInt16) (hi : i.toNat ≤ 2047) :
    ∃ w ∈ d.words, (withSep d sep).lookupWord i = .ok w ∧ (withSep d sep).lookupMnemonic w = .ok i := by
  have hlt : i.toNat < d.words.length := by rw [d.len]; omega
  refine ⟨d.words[i.toNat], List.getElem_mem hlt, ?_, lookup_of_get d hg.nodup _ i (List.getElem?_eq_getElem hlt)⟩
  show Res.ofPanic (d.words[i.toNat]?) = _
  rw [List.getElem?_eq_getElem hlt]
  rfl

theorem japanese_noIdeographic : ∀ w ∈ japanese.words, '\u3000' ∉ w := by
  have h : DictData.japaneseCodes.all (fun n => !(decodeWord 16 n).any (· == '\u3000')) = true := by decide +kernel
  intro w hw hc
  rw [show japanese.words = decodeWords DictData.japaneseCodes from rfl, decodeWords] at hw
  obtain ⟨n, hn, rfl⟩ := List.mem_map.mp hw
  have := List.all_eq_true.mp h n hn
  rw [Bool.not_eq_true', List.any_eq_false] at this
  exact this _ hc (beq_self_eq_true _)

/-- The Japanese list with the ideographic space, as BIP-39 recommends for display: every phrase is read back from its text, and the crate's own
Japanese dictionary refuses every such text. -/
theorem C103_case_japanese (m : Mnemonics) (hn : m.idx.length ∈ wordCounts) (hi : ∀ i ∈ m.idx, i.toNat ≤ 2047) :
    ∃ t, (withSep japanese ['\u3000']).toText m = some t ∧ (withSep japanese ['\u3000']).fromString t = .ok m ∧
      ∀ m', Mnemonics.fromString japanese t ≠ .ok m' := by
  have hg := Language.japanese.good
  obtain ⟨t, h1, h2⟩ := C103_round (withSep japanese ['\u3000']) (List.cons_ne_nil _ _) m hn fun i h => by
    obtain ⟨w, hw, a, b⟩ := withSep_words japanese hg ['\u3000'] i (hi i h)
    exact ⟨w, a, b, clean_char (japanese_noIdeographic w hw)⟩
  refine ⟨t, h1, h2, fun m' h => ?_⟩
  rw [← (C103_default japanese t m').1, C103_accept japanese.toLang (List.cons_ne_nil _ _)] at h
  obtain ⟨ws', p1, p2, p3⟩ := h
  obtain ⟨ws, q1, q2, -⟩ := (C103_accept _ (List.cons_ne_nil _ _) t m).mp h2
  have hsp : ' ' ∉ t := by
    rw [(pieces_join q1).1]
    have hws : ∀ w ∈ ws, ' ' ∉ w := by
      intro w hw
      obtain ⟨i, hl⟩ : ∃ i, japanese.lookupMnemonic w = .ok i := by
        generalize m.idx = is at q2
        clear q1 p2 h1 h2
        induction q2 with
        | nil => cases hw
        | cons a _ ih =>
          rcases List.mem_cons.mp hw with rfl | hw
          · exact ⟨_, a⟩
          · exact ih hw
      exact hg.noSep w (List.mem_of_getElem? (get_of_lookup japanese w i hl).1)
    clear q1 q2 h1 h2
    show ' ' ∉ List.intercalate ['\u3000'] ws
    cases ws with
    | nil => simp [List.intercalate]
    | cons w ws =>
      rw [Lang.join_flatMap, List.mem_append, List.mem_flatMap]
      rintro (h | ⟨x, hx, h⟩)
      · exact hws w (by simp) h
      · rcases List.mem_append.mp h with h | h
        · exact absurd h (by decide)
        · exact hws x (by simp [hx]) h
  have e := ((splitBy_iff (List.cons_ne_nil _ _) t ws').mpr p1).symm.trans
    ((splitBy_iff (List.cons_ne_nil _ _) t [t]).mpr (.last t (clean_char hsp).2))
  rw [← p2.length_eq, e] at p3
  revert p3
  show (1 ∈ wordCounts) → False
  decide

theorem refuses_empty (d : Dict) (hg : d.Good) : (withSep d []).lookupMnemonic [] = .err (.wordNotFound []) := by
  rcases lookup_cases d [] with ⟨i, h, hm⟩ | ⟨h, -⟩
  · exact absurd rfl (hg.nonEmpty [] (List.mem_of_getElem? hm.1))
  · exact h

/-- The Chinese list with no separator, as Chinese is written: every phrase has a text, and no text is accepted. -/
theorem C103_case_chinese (m : Mnemonics) (hi : ∀ i ∈ m.idx, i.toNat ≤ 2047) :
    (∃ t, (withSep chineseSimplified []).toText m = some t) ∧
    ∀ s, (withSep chineseSimplified []).fromString s = .err (.languageError (.wordNotFound [])) := by
  have hg := Language.chineseSimplified.good
  constructor
  · cases h : (withSep chineseSimplified []).toText m with
    | some t => exact ⟨t, rfl⟩
    | none =>
      obtain ⟨i, hm, hw⟩ := (C103_text _ m).2.mp h
      obtain ⟨w, -, a, -⟩ := withSep_words chineseSimplified hg [] i (hi i hm)
      exact absurd a (hw w)
  · intro s
    exact C103_empty _ rfl _ (refuses_empty chineseSimplified hg) s

/-- Neither of these words contains the separator, yet they are not cut apart again. -/
theorem C103_case_overlap : Free ['a', 'a'] ['b', 'a'] ∧ Free ['a', 'a'] ['c'] ∧
    splitBy ['a', 'a'] (List.intercalate ['a', 'a'] [['b', 'a'], ['c']]) = [['b'], ['a', 'c']] := by
  have key : ∀ w : Str, splitBy ['a', 'a'] w = [w] → Free ['a', 'a'] w := by
    intro w h
    exact ((C103_cut_back ['a', 'a'] (List.cons_ne_nil _ _) [] w).mp (by simpa [List.intercalate] using h)).2
  exact ⟨key _ (by decide), key _ (by decide), by decide⟩

/-- The English list, ignoring case. -/
def anyCase : Lang := { english.toLang with lookupMnemonic := fun w => english.lookupMnemonic (w.map Char.toLower) }

/-- It reads "zoo" and "ZOO" twelve times each as the same phrase; the strings differ. -/
theorem C103_case_spellings : ∃ m, anyCase.fromString (spaced (List.replicate 12 ['z', 'o', 'o'])) = .ok m ∧
    anyCase.fromString (spaced (List.replicate 12 ['Z', 'O', 'O'])) = .ok m ∧
    spaced (List.replicate 12 ['z', 'o', 'o']) ≠ spaced (List.replicate 12 ['Z', 'O', 'O']) := by
  have hz : english.lookupMnemonic ['z', 'o', 'o'] = .ok 2047 := by decide +kernel
  have key : ∀ w : Str, ' ' ∉ w → w.map Char.toLower = ['z', 'o', 'o'] → anyCase.fromString (spaced (List.replicate 12 w)) = .ok ⟨List.replicate 12 2047⟩ := by
    intro w hs hw
    refine (C103_accept anyCase (List.cons_ne_nil _ _) _ _).mpr ⟨List.replicate 12 w, ?_, ?_, by decide⟩
    · exact (join_pieces [' '] (List.replicate 11 w) w).mpr ⟨fun x hx => List.eq_of_mem_replicate hx ▸ (clean_char hs).1, (clean_char hs).2⟩
    · have : anyCase.lookupMnemonic w = .ok 2047 := by
        show english.lookupMnemonic (w.map Char.toLower) = _
        rw [hw, hz]
      generalize 12 = k
      induction k with
      | zero => exact .nil
      | succ k ih => exact .cons this ih
  exact ⟨_, key _ (by decide) (by decide), key _ (by decide) (by decide), by decide⟩

/-- A dictionary that answers 2048. -/
theorem C103_case_index : ∃ (L : Lang) (s : Str) (m : Mnemonics), L.fromString s = .ok m ∧ (2048 : UInt16) ∈ m.idx :=
  ⟨⟨[], [','], fun _ => .ok 2048, fun _ => .panic⟩, List.intercalate [','] (List.replicate 9 ['x']), ⟨List.replicate 9 2048⟩, by decide, by decide⟩

end KC.Props
