import Verif.Real.ListsA
import Verif.Real.ListsB
import Verif.Real.ListsC
import Verif.Real.Hashes
import Verif.Props.Mnemonic
import Verif.Proofs.Passwords
/-
C71: the word lists are the published ones.
-/
namespace KC.Props
open KC.Spec KC.Spec.WordLists KC.Mnemonic
open KC.Bip39 (Mnemonics Entropy MType toText_words words_of_indices)

/-- C71: the words of every language, one per line, have the SHA-256 of the published list; and they are 2048 words without line ends. -/
theorem C71_lists (l : Language) :
    Bip32.be (Real.sha256 (Str.utf8 (lines l.toDict.words))) = published l ∧ l.toDict.words.length = 2048 ∧
    ∀ w ∈ l.toDict.words, '\n' ∉ w := by
  refine ⟨?_, l.toDict.len, ?_⟩
  · cases l
    · exact (congrArg Bip32.be Real.Lists.english).trans (by decide +kernel)
    · exact (congrArg Bip32.be Real.Lists.french).trans (by decide +kernel)
    · exact (congrArg Bip32.be Real.Lists.japanese).trans (by decide +kernel)
    · exact (congrArg Bip32.be Real.Lists.korean).trans (by decide +kernel)
    · exact (congrArg Bip32.be Real.Lists.chineseSimplified).trans (by decide +kernel)
    · exact (congrArg Bip32.be Real.Lists.chineseTraditional).trans (by decide +kernel)
    · exact (congrArg Bip32.be Real.Lists.italian).trans (by decide +kernel)
    · exact (congrArg Bip32.be Real.Lists.spanish).trans (by decide +kernel)
  · cases l
    · exact Real.Lists.english_nl
    · exact Real.Lists.french_nl
    · exact Real.Lists.japanese_nl
    · exact Real.Lists.korean_nl
    · exact Real.Lists.chineseSimplified_nl
    · exact Real.Lists.chineseTraditional_nl
    · exact Real.Lists.italian_nl
    · exact Real.Lists.spanish_nl

theorem lines_inj : ∀ {a b : List Str}, (∀ w ∈ a, '\n' ∉ w) → (∀ w ∈ b, '\n' ∉ w) → lines a = lines b → a = b
  | [], [], _, _, _ => rfl
  | [], w :: b, _, _, h => by simp [lines] at h
  | w :: a, [], _, _, h => by simp [lines] at h
  | w :: a, w' :: b, ha, hb, h => by
    have h : w ++ '\n' :: lines a = w' ++ '\n' :: lines b := by simpa [lines] using h
    have key : ∀ {w w' : Str} {r r' : Str}, '\n' ∉ w → '\n' ∉ w' → w ++ '\n' :: r = w' ++ '\n' :: r' → w = w' ∧ r = r' := by
      intro w
      induction w with
      | nil =>
        intro w' r r' _ h' h
        cases w' with
        | nil => exact ⟨rfl, (List.cons.inj h).2⟩
        | cons c w' => exact absurd (List.mem_cons.mpr (.inl (List.cons.inj h).1)) h'
      | cons c w ih =>
        intro w' r r' h1 h' h
        cases w' with
        | nil => exact absurd (List.mem_cons.mpr (.inl (List.cons.inj h).1.symm)) h1
        | cons c' w' =>
          obtain ⟨e1, e2⟩ := List.cons.inj h
          obtain ⟨e3, e4⟩ := ih (fun hm => h1 (List.mem_cons_of_mem _ hm)) (fun hm => h' (List.mem_cons_of_mem _ hm)) e2
          exact ⟨by rw [e1, e3], e4⟩
    obtain ⟨e1, e2⟩ := key (ha w (by simp)) (hb w' (by simp)) h
    rw [e1, lines_inj (fun x hx => ha x (by simp [hx])) (fun x hx => hb x (by simp [hx])) e2]

/-- C71: a text determines the words it has one per line; so a list of words with the text of the published one is the list of the
dictionary. -/
theorem C71_determined (l : Language) (ws : List Str) (h : ∀ w ∈ ws, '\n' ∉ w)
    (ht : Str.utf8 (lines ws) = Str.utf8 (lines l.toDict.words)) : ws = l.toDict.words :=
  lines_inj h (C71_lists l).2.2 (Passwords.utf8_inj ht)

theorem fromSlice_bytes {b : Bytes} {e : Entropy} (h : Entropy.fromSlice b = .ok e) : e.bytes = b := by
  rw [Entropy.fromSlice, Res.bind_eq_ok] at h
  obtain ⟨t, ht, hn⟩ := h
  have hk := ((C07_entropy_size _).1 t).mp ht
  rw [Entropy.new] at hn
  have hl : b.length = t.toKeySize / 8 := by rw [hk.2]; omega
  rw [dif_pos (by omega)] at hn
  cases hn
  exact List.take_of_length_le (by omega)

theorem fromSlice_of {b : Bytes} {n : Nat} (hn : n ∈ wordCounts) (h : 8 * b.length = entBits n) :
    ∃ e, Entropy.fromSlice b = .ok e := by
  obtain ⟨t, -, ht⟩ := C07_complete n hn
  have hk := (C07_consistent t).2.2.2.2.1
  rw [ht, ← h] at hk
  have he := (C07_consistent t).2.1
  rw [Entropy.fromSlice, show b.length * 8 = t.toKeySize by omega, he, Res.bind_ok, Entropy.new, dif_pos (by omega)]
  exact ⟨_, rfl⟩

theorem entBits_inj {m n : Nat} (hm : m ∈ wordCounts) (hn : n ∈ wordCounts) (h : entBits m = entBits n) : m = n := by
  simp only [wordCounts, List.mem_cons, List.not_mem_nil, or_false] at hm hn
  simp only [entBits] at h
  omega

theorem forall₂_bound {list ws : List Str} {idx : List UInt16} (hl : list.length = 2048)
    (h : List.Forall₂ (fun w (i : UInt16) => list[i.toNat]? = some w) ws idx) : ∀ i ∈ idx, i.toNat ≤ 2047 := by
  induction h with
  | nil => simp
  | cons h1 _ ih =>
    intro i hi
    rcases List.mem_cons.mp hi with rfl | hi
    · have := (List.getElem?_eq_some_iff.mp h1).1
      omega
    · exact ih i hi

/-- When a byte string has a phrase as its text. -/
theorem phrase_iff (H : Hashes) (l : Language) (b : Bytes) (text : Str) : mnemonicFromEntropy H b l = .ok text ↔
    ∃ idx ws, idx.length ∈ wordCounts ∧ Carries H.sha256 idx b ∧
      List.Forall₂ (fun w (i : UInt16) => l.toDict.words[i.toNat]? = some w) ws idx ∧ text = spaced ws := by
  constructor
  · intro h
    simp only [mnemonicFromEntropy, Res.bind_eq_ok, Res.mapErr_eq_ok] at h
    obtain ⟨e, he, m, hm, ht⟩ := h
    have hb := fromSlice_bytes he
    obtain ⟨m', h1, h2, h3, h4, h5⟩ := C05_to_mnemonics H e
    rw [h1] at hm
    cases hm
    obtain ⟨ws, hw⟩ := words_of_indices l.toDict m.idx h4
    rw [toText_words _ _ _ hw] at ht
    cases ht
    exact ⟨m.idx, ws, h2, hb ▸ h5, hw, rfl⟩
  · rintro ⟨idx, ws, hn, hc, hw, rfl⟩
    have hi : ∀ i ∈ idx, i.toNat ≤ 2047 := forall₂_bound l.toDict.len hw
    obtain ⟨e, he⟩ := fromSlice_of hn hc.2
    have hb := fromSlice_bytes he
    obtain ⟨m, h1, h2, h3, h4, h5⟩ := C05_to_mnemonics H e
    have hl : m.idx.length = idx.length := by
      have := hc.2
      rw [← hb, h5.2] at this
      exact entBits_inj h2 hn this
    have hm : m.idx = idx := by
      apply Bits.wordsBits_inj (fun x hx => by have := h4 x hx; omega) (fun x hx => by have := hi x hx; omega)
      rw [h5.1, hc.1, hl, hb]
    simp only [mnemonicFromEntropy, he, Res.mapErr, Res.bind_ok, h1, Res.ofPanic]
    have := toText_words l.toDict ws idx hw
    rw [← hm] at this
    rw [this]
    rfl

/-- C71: so phrases are those of BIP-39 with a list of the published SHA-256: the words at the indices that carry the entropy and its
checksum, separated by spaces. -/
theorem C71_phrase (l : Language) :
    ∃ list : List Str, Bip32.be (Real.sha256 (Str.utf8 (lines list))) = published l ∧ list.length = 2048 ∧ list.Nodup ∧
      ∀ (b : Bytes) (text : Str), mnemonicFromEntropy Real.hashes b l = .ok text ↔
        ∃ idx ws, idx.length ∈ wordCounts ∧ Carries Real.sha256 idx b ∧
          List.Forall₂ (fun w (i : UInt16) => list[i.toNat]? = some w) ws idx ∧ text = spaced ws :=
  ⟨l.toDict.words, (C71_lists l).1, l.toDict.len, l.good.nodup, phrase_iff Real.hashes l⟩

/-- Non-vacuity of C71: the first and the last English word; and a phrase of BIP-39's test vectors (entropy zero). -/
example : Bip39.english.words[0]? = some "abandon".toList ∧ Bip39.english.words[2047]? = some "zoo".toList ∧
    Bip39.spanish.words[0]? = some "a\u0301baco".toList := by decide +kernel

end KC.Props
