import Verif.Props.Bip39
import Verif.Proofs.Abbrev.Short
import Verif.Proofs.Abbrev.Free
import Verif.Proofs.Abbrev.French
import Verif.Proofs.Abbrev.Italian
/-
C95: what of the words of a phrase is enough to know it.
-/
namespace KC.Props
open KC.Bip39 KC.Spec KC.Spec.Abbrev
open KC.Mnemonic (Language)

/-- C95: the first letters of a word, marks left out, determine it in its language. -/
theorem C95_word (l : Language) (w v : Str) (hw : w ∈ l.toDict.words) (hv : v ∈ l.toDict.words)
    (h : short (enough l) w = short (enough l) v) : w = v := by
  rw [l.words_eq] at hw hv
  cases l
  · exact Abbrev.short_inj Abbrev.english hw hv h
  · exact Abbrev.short_inj Abbrev.french hw hv h
  · exact Abbrev.short_inj Abbrev.japanese hw hv h
  · exact Abbrev.short_inj Abbrev.korean hw hv h
  · exact Abbrev.short_inj Abbrev.chineseSimplified hw hv h
  · exact Abbrev.short_inj Abbrev.chineseTraditional hw hv h
  · exact Abbrev.short_inj Abbrev.italian hw hv h
  · exact Abbrev.short_inj Abbrev.spanish hw hv h

/-- Words `i` and `j` of the language differ, and agree in the first `k` letters. -/
def alike (l : Language) (k i j : Nat) : Bool :=
  match l.toDict.words[i]?, l.toDict.words[j]? with
  | some w, some v => decide (w ≠ v) && decide (short k w = short k v)
  | _, _ => false

/-- C95: fewer letters do not. -/
theorem C95_least (l : Language) : ∃ w ∈ l.toDict.words, ∃ v ∈ l.toDict.words, w ≠ v ∧ short (enough l - 1) w = short (enough l - 1) v := by
  have key : ∀ i j, alike l (enough l - 1) i j = true →
      ∃ w ∈ l.toDict.words, ∃ v ∈ l.toDict.words, w ≠ v ∧ short (enough l - 1) w = short (enough l - 1) v := by
    intro i j h
    unfold alike at h
    split at h
    · rename_i w v h1 h2
      simp only [Bool.and_eq_true, decide_eq_true_eq] at h
      exact ⟨w, List.mem_of_getElem? h1, v, List.mem_of_getElem? h2, h⟩
    · cases h
  cases l
  · exact key 3 4 (by decide +kernel)
  · exact key 0 1 (by decide +kernel)
  · exact key 0 1 (by decide +kernel)
  · exact key 12 13 (by decide +kernel)
  · exact key 0 1 (by decide +kernel)
  · exact key 0 1 (by decide +kernel)
  · exact key 1 2 (by decide +kernel)
  · exact key 4 5 (by decide +kernel)

theorem words_of_text {l : Language} {s : Str} {m : Mnemonics} (h : Mnemonics.fromString l.toDict s = .ok m) :
    s = spaced (split ' ' s) ∧ ∀ w ∈ split ' ' s, w ∈ l.toDict.words := by
  rw [fromString_ok _ l.good] at h
  exact ⟨(split_join ' ' s).symm, mem_of_forall2 h.1⟩

/-- C95: so two phrases the words of which have the same first letters, in order, are the same phrase. -/
theorem C95_phrase (l : Language) (s s' : Str) (m m' : Mnemonics) (h : Mnemonics.fromString l.toDict s = .ok m)
    (h' : Mnemonics.fromString l.toDict s' = .ok m') (ws vs : List Str) (hs : s = spaced ws) (hs' : s' = spaced vs)
    (hw : ∀ w ∈ ws, ' ' ∉ w) (hv : ∀ v ∈ vs, ' ' ∉ v) (he : ws.map (short (enough l)) = vs.map (short (enough l))) : s = s' := by
  have key : ∀ {t : Str} {n : Mnemonics} {us : List Str}, Mnemonics.fromString l.toDict t = .ok n → t = spaced us → (∀ u ∈ us, ' ' ∉ u) →
      ∀ u ∈ us, u ∈ l.toDict.words := by
    intro t n us ht hu hn
    have hk := (words_of_text ht).2
    cases us with
    | nil => nofun
    | cons u us =>
      have : split ' ' t = u :: us := by rw [hu]; exact split_intercalate ' ' _ (by simp) hn
      rwa [this] at hk
  have kw := key h hs hw
  have kv := key h' hs' hv
  rw [hs, hs']
  congr 1
  clear hs hs' h h' hw hv key
  induction ws generalizing vs with
  | nil => cases vs with
    | nil => rfl
    | cons v vs => cases he
  | cons w ws ih =>
    cases vs with
    | nil => cases he
    | cons v vs =>
      simp only [List.map_cons, List.cons.injEq] at he
      rw [C95_word l w v (kw w (by simp)) (kv v (by simp)) he.1,
        ih vs he.2 (fun x hx => kw x (by simp [hx])) (fun x hx => kv x (by simp [hx]))]

theorem unspaced (ws : List Str) (h : ∀ w ∈ ws, ' ' ∉ w) : (spaced ws).filter (fun c => c ≠ ' ') = ws.flatten := by
  have keep : ∀ w : Str, ' ' ∉ w → w.filter (fun c => c ≠ ' ') = w := by
    intro w hw
    apply List.filter_eq_self.mpr
    intro c hc
    have : c ≠ ' ' := by rintro rfl; exact hw hc
    simpa using this
  induction ws with
  | nil => rfl
  | cons w ws ih =>
    cases ws with
    | nil => simpa [spaced] using keep w (h w (by simp))
    | cons x t =>
      have ih := ih fun y hy => h y (by simp [hy])
      rw [spaced, join_cons_cons, List.filter_append, List.filter_cons_of_neg (by simp), keep w (h w (by simp)), List.flatten_cons]
      rw [show List.filter (fun c => decide (c ≠ ' ')) ([' '].intercalate (x :: t)) = (x :: t).flatten from ih]

/-- C95: in all languages but English and Spanish, a phrase can be read without the spaces. -/
theorem C95_unspaced (l : Language) (hl : l ≠ .english ∧ l ≠ .spanish) (s s' : Str) (m m' : Mnemonics)
    (h : Mnemonics.fromString l.toDict s = .ok m) (h' : Mnemonics.fromString l.toDict s' = .ok m')
    (he : s.filter (fun c => c ≠ ' ') = s'.filter (fun c => c ≠ ' ')) : s = s' := by
  obtain ⟨e, hw⟩ := words_of_text h
  obtain ⟨e', hw'⟩ := words_of_text h'
  rw [e, e', unspaced _ (split_noSep ' ' s), unspaced _ (split_noSep ' ' s')] at he
  have free : ∀ w ∈ l.toDict.words, ∀ v ∈ l.toDict.words, w <+: v → w = v := by
    rw [l.words_eq]
    intro w hw v hv
    cases l
    · exact absurd rfl hl.1
    · exact Abbrev.prefix_free Abbrev.french Abbrev.french_free hw hv
    · exact Abbrev.prefix_free Abbrev.japanese Abbrev.japanese_free hw hv
    · exact Abbrev.prefix_free Abbrev.korean Abbrev.korean_free hw hv
    · exact Abbrev.prefix_free Abbrev.chineseSimplified Abbrev.chineseSimplified_free hw hv
    · exact Abbrev.prefix_free Abbrev.chineseTraditional Abbrev.chineseTraditional_free hw hv
    · exact Abbrev.prefix_free Abbrev.italian Abbrev.italian_free hw hv
    · exact absurd rfl hl.2
  rw [e, e', Abbrev.flatten_inj l.good.nonEmpty free _ _ hw hw' he]

/-- C95: in English and Spanish it cannot: two phrases of twelve words may have the same letters in the same order. -/
theorem C95_spaces (l : Language) (hl : l = .english ∨ l = .spanish) : ∃ s s' m m', Mnemonics.fromString l.toDict s = .ok m ∧
    Mnemonics.fromString l.toDict s' = .ok m' ∧ s.filter (fun c => c ≠ ' ') = s'.filter (fun c => c ≠ ' ') ∧ s ≠ s' := by
  have key : ∀ ws vs : List Str, (∀ w ∈ ws, w ∈ l.toDict.words) → ws.length ∈ wordCounts → (∀ w ∈ vs, w ∈ l.toDict.words) →
      vs.length ∈ wordCounts → (spaced ws).filter (fun c => c ≠ ' ') = (spaced vs).filter (fun c => c ≠ ' ') ∧ spaced ws ≠ spaced vs →
      ∃ s s' m m', Mnemonics.fromString l.toDict s = .ok m ∧
        Mnemonics.fromString l.toDict s' = .ok m' ∧ s.filter (fun c => c ≠ ' ') = s'.filter (fun c => c ≠ ' ') ∧ s ≠ s' := by
    intro ws vs h1 h2 h3 h4 h5
    obtain ⟨m, hm⟩ := (C11_accept l (spaced ws)).mpr ⟨ws, rfl, h1, h2⟩
    obtain ⟨m', hm'⟩ := (C11_accept l (spaced vs)).mpr ⟨vs, rfl, h3, h4⟩
    exact ⟨_, _, m, m', hm, hm', h5⟩
  rcases hl with rfl | rfl
  · exact key (["leg", "end", "carpet", "act", "act", "act", "act", "act", "act", "act", "act", "act"].map String.toList)
      (["legend", "car", "pet", "act", "act", "act", "act", "act", "act", "act", "act", "act"].map String.toList)
      (by decide +kernel) (by decide +kernel) (by decide +kernel) (by decide +kernel) (by decide +kernel)
  · exact key (["martes", "oro", "mar", "mar", "mar", "mar", "mar", "mar", "mar", "mar", "mar", "mar"].map String.toList)
      (["mar", "tesoro", "mar", "mar", "mar", "mar", "mar", "mar", "mar", "mar", "mar", "mar"].map String.toList)
      (by decide +kernel) (by decide +kernel) (by decide +kernel) (by decide +kernel) (by decide +kernel)

/-- C95: in French and Italian, no character put in the place of another makes another word of a word. -/
theorem C95_letter (l : Language) (hl : l = .french ∨ l = .italian) (p q : Str) (c c' : Char) (hw : p ++ c :: q ∈ l.toDict.words)
    (hv : p ++ c' :: q ∈ l.toDict.words) : c = c' := by
  rw [l.words_eq] at hw hv
  rcases hl with rfl | rfl
  · have hi := Abbrev.within_len Abbrev.french_within hw
    rw [List.length_append, List.length_cons] at hi
    obtain ⟨m, hm⟩ := Abbrev.french_holes p.length (by omega)
    exact Abbrev.hole_inj (Language.codesOk .french) hm hw hv
  · have hi := Abbrev.within_len Abbrev.italian_within hw
    rw [List.length_append, List.length_cons] at hi
    obtain ⟨m, hm⟩ := Abbrev.italian_holes p.length (by omega)
    exact Abbrev.hole_inj (Language.codesOk .italian) hm hw hv

/-- Words `i` and `j` differ in the character at place `k`, and in no other. -/
def oneOff (l : Language) (i j k : Nat) : Bool :=
  match l.toDict.words[i]?, l.toDict.words[j]? with
  | some w, some v => decide (k < w.length) && decide (k < v.length) && decide (w.take k = v.take k) &&
      decide (w.drop (k + 1) = v.drop (k + 1)) && decide (w[k]? ≠ v[k]?)
  | _, _ => false

/-- C95: in every other language there are such words. -/
theorem C95_mistaken (l : Language) (hl : l ≠ .french ∧ l ≠ .italian) :
    ∃ p q c c', p ++ c :: q ∈ l.toDict.words ∧ p ++ c' :: q ∈ l.toDict.words ∧ c ≠ c' := by
  have key : ∀ i j k, oneOff l i j k = true → ∃ p q c c', p ++ c :: q ∈ l.toDict.words ∧ p ++ c' :: q ∈ l.toDict.words ∧ c ≠ c' := by
    intro i j k h
    unfold oneOff at h
    split at h
    · rename_i w v h1 h2
      simp only [Bool.and_eq_true, decide_eq_true_eq] at h
      obtain ⟨⟨⟨⟨a, b⟩, d⟩, e⟩, f⟩ := h
      have s : ∀ x : Str, ∀ hx : k < x.length, x = x.take k ++ x[k] :: x.drop (k + 1) := by
        intro x hx
        rw [List.getElem_cons_drop, List.take_append_drop]
      refine ⟨w.take k, w.drop (k + 1), w[k], v[k], ?_, ?_, ?_⟩
      · rw [← s w a]; exact List.mem_of_getElem? h1
      · rw [d, e, ← s v b]; exact List.mem_of_getElem? h2
      · intro hc
        rw [List.getElem?_eq_getElem a, List.getElem?_eq_getElem b, hc] at f
        exact f rfl
    · cases h
  cases l
  · exact key 42 43 2 (by decide +kernel)
  · exact absurd rfl hl.1
  · exact key 5 7 1 (by decide +kernel)
  · exact key 7 8 2 (by decide +kernel)
  · exact key 0 1 0 (by decide +kernel)
  · exact key 0 1 0 (by decide +kernel)
  · exact absurd rfl hl.2
  · exact key 43 46 2 (by decide +kernel)

/-- C95, a case: the first four letters of two Spanish words, the marks left out. -/
theorem C95_case : short (enough .spanish) "a\u0301baco".toList = "abac".toList ∧ "a\u0301baco".toList ∈ (Language.toDict .spanish).words ∧
    short (enough .spanish) "abogado".toList = "abog".toList ∧ "abogado".toList ∈ (Language.toDict .spanish).words := by
  decide +kernel

end KC.Props
