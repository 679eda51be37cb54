import Verif.Model.Bip39
import Verif.Proofs.Dict
import Mathlib.Data.List.Forall2
/-
Splitting, joining and dictionary look-up.
-/
namespace KC.Bip39

section Split
variable (sep : Char)

theorem split_ne_nil (s : Str) : split sep s ≠ [] := by
  cases s with
  | nil => simp [split]
  | cons c s =>
    simp only [split]
    split
    · simp
    · split <;> simp

theorem join_nil : [sep].intercalate ([] : List Str) = [] := rfl
theorem join_single (w : Str) : [sep].intercalate [w] = w := by simp [List.intercalate]
theorem join_cons_cons (w x : Str) (t : List Str) :
    [sep].intercalate (w :: x :: t) = w ++ sep :: [sep].intercalate (x :: t) := by simp [List.intercalate]
theorem join_cons (w : Str) (t : List Str) (h : t ≠ []) :
    [sep].intercalate (w :: t) = w ++ sep :: [sep].intercalate t := by
  cases t with
  | nil => exact absurd rfl h
  | cons x t => exact join_cons_cons sep w x t

theorem split_join (s : Str) : [sep].intercalate (split sep s) = s := by
  induction s with
  | nil => rfl
  | cons c s ih =>
    simp only [split]
    split
    · rename_i h
      rw [join_cons _ _ _ (split_ne_nil sep s), ih, h]; rfl
    · cases hs : split sep s with
      | nil => exact absurd hs (split_ne_nil sep s)
      | cons h t =>
        rw [hs] at ih
        cases t with
        | nil => rw [join_single] at *; rw [ih]
        | cons x t => rw [join_cons_cons] at *; rw [List.cons_append, ih]

theorem split_noSep (s : Str) : ∀ w ∈ split sep s, sep ∉ w := by
  induction s with
  | nil => simp [split]
  | cons c s ih =>
    simp only [split]
    split
    · intro w hw
      rcases List.mem_cons.mp hw with rfl | hw
      · simp
      · exact ih w hw
    · rename_i hc
      cases hs : split sep s with
      | nil => exact absurd hs (split_ne_nil sep s)
      | cons h t =>
        rw [hs] at ih
        intro w hw
        rcases List.mem_cons.mp hw with rfl | hw
        · intro hm
          rcases List.mem_cons.mp hm with e | hm
          · exact hc e.symm
          · exact ih h (by simp) hm
        · exact ih w (by simp [hw])

theorem split_single (w : Str) (h : sep ∉ w) : split sep w = [w] := by
  induction w with
  | nil => rfl
  | cons c w ih =>
    have hc : c ≠ sep := fun e => h (by simp [e])
    simp only [split, hc, if_false, ih (fun hm => h (by simp [hm]))]

theorem split_append (w s : Str) (h : sep ∉ w) : split sep (w ++ sep :: s) = w :: split sep s := by
  induction w with
  | nil => simp [split]
  | cons c w ih =>
    have hc : c ≠ sep := fun e => h (by simp [e])
    simp only [List.cons_append, split, hc, if_false, ih (fun hm => h (by simp [hm]))]

theorem split_intercalate (ws : List Str) (h0 : ws ≠ []) (h : ∀ w ∈ ws, sep ∉ w) :
    split sep ([sep].intercalate ws) = ws := by
  induction ws with
  | nil => exact absurd rfl h0
  | cons w t ih =>
    cases t with
    | nil => rw [join_single]; exact split_single sep w (h w (by simp))
    | cons x t =>
      rw [join_cons_cons, split_append _ _ _ (h w (by simp)), ih (by simp) (fun w hw => h w (by simp [hw]))]

end Split

/-! ### Look-up -/

theorem le_max {m : UInt16} : m ≤ maxMnemonicValue ↔ m.toNat ≤ 2047 := Iff.rfl

theorem indexNew_ok {m i : UInt16} : indexNew m = .ok i ↔ m.toNat ≤ 2047 ∧ i = m := by
  unfold indexNew
  split
  · rename_i h; simp [le_max.mp h, eq_comm]
  · rename_i h; simp [le_max] at h; simp; omega

theorem indexNew_err {m : UInt16} (h : 2047 < m.toNat) : indexNew m = .err (.mnemonicOutOfBound m) := by
  unfold indexNew
  rw [if_neg (by rw [le_max]; omega)]

theorem lookup_cases (d : Dict) (w : Str) :
    (∃ i, d.lookupMnemonic w = .ok i ∧ d.words[i.toNat]? = some w ∧ i.toNat ≤ 2047) ∨
    (d.lookupMnemonic w = .err (.wordNotFound w) ∧ w ∉ d.words) := by
  unfold Dict.lookupMnemonic
  cases hf : d.words.findIdx? (· = w) with
  | none =>
    right
    refine ⟨rfl, fun hm => ?_⟩
    rw [List.findIdx?_eq_none_iff] at hf
    have := hf w hm
    simp at this
  | some v =>
    left
    rw [List.findIdx?_eq_some_iff_getElem] at hf
    obtain ⟨hv, hp, -⟩ := hf
    have hlen := d.len
    have e : (UInt16.ofNat v).toNat = v := by rw [UInt16.toNat_ofNat']; omega
    have hi : indexNew (UInt16.ofNat v) = .ok (UInt16.ofNat v) := indexNew_ok.mpr ⟨by omega, rfl⟩
    refine ⟨UInt16.ofNat v, by simp only [hi], ?_, by omega⟩
    rw [e, List.getElem?_eq_getElem hv]
    simpa using hp

theorem lookup_of_get (d : Dict) (hg : d.words.Nodup) (w : Str) (i : UInt16) (h : d.words[i.toNat]? = some w) :
    d.lookupMnemonic w = .ok i := by
  obtain ⟨hi, hw⟩ := List.getElem?_eq_some_iff.mp h
  rcases lookup_cases d w with ⟨j, hj, hj2, -⟩ | ⟨-, hn⟩
  · obtain ⟨hj', hw'⟩ := List.getElem?_eq_some_iff.mp hj2
    have : i.toNat = j.toNat := (List.Nodup.getElem_inj_iff hg).mp (hw.trans hw'.symm)
    rw [hj, UInt16.toNat_inj.mp this]
  · exact absurd (hw ▸ List.getElem_mem hi) hn

theorem get_of_lookup (d : Dict) (w : Str) (i : UInt16) (h : d.lookupMnemonic w = .ok i) :
    d.words[i.toNat]? = some w ∧ i.toNat ≤ 2047 := by
  rcases lookup_cases d w with ⟨j, hj, hj2, hj3⟩ | ⟨he, -⟩
  · rw [h] at hj; cases hj; exact ⟨hj2, hj3⟩
  · rw [h] at he; cases he

/-- `fromWords` relates words to indices one by one. -/
theorem fromWords_ok (d : Dict) (hg : d.words.Nodup) (ws : List Str) (is : List UInt16) :
    fromWords d ws = .ok is ↔ List.Forall₂ (fun w (i : UInt16) => d.words[i.toNat]? = some w) ws is := by
  induction ws generalizing is with
  | nil => simp [fromWords, eq_comm]
  | cons w ws ih =>
    simp only [fromWords, Res.bind_eq_ok, indexFromWord, Res.mapErr_eq_ok]
    constructor
    · rintro ⟨i, hi, t, ht, h⟩
      simp only [Res.ok.injEq] at h
      subst h
      exact .cons (get_of_lookup d w i hi).1 ((ih t).mp ht)
    · intro h
      cases h with
      | cons h1 h2 => exact ⟨_, lookup_of_get d hg w _ h1, _, (ih _).mpr h2, rfl⟩

theorem fromWords_bound (d : Dict) (ws : List Str) (is : List UInt16) (h : fromWords d ws = .ok is) :
    is.length = ws.length ∧ ∀ i ∈ is, i.toNat ≤ 2047 := by
  induction ws generalizing is with
  | nil => simp [fromWords] at h; subst h; simp
  | cons w ws ih =>
    simp only [fromWords, Res.bind_eq_ok, indexFromWord, Res.mapErr_eq_ok] at h
    obtain ⟨i, hi, t, ht, h⟩ := h
    simp only [Res.ok.injEq] at h
    subst h
    obtain ⟨h1, h2⟩ := ih t ht
    refine ⟨by simp [h1], ?_⟩
    intro x hx
    rcases List.mem_cons.mp hx with rfl | hx
    · exact (get_of_lookup d w _ hi).2
    · exact h2 x hx

theorem fromWords_known (d : Dict) (ws : List Str) (h : ∀ w ∈ ws, w ∈ d.words) :
    ∃ is, fromWords d ws = .ok is := by
  induction ws with
  | nil => exact ⟨[], rfl⟩
  | cons w ws ih =>
    obtain ⟨is, his⟩ := ih (fun x hx => h x (by simp [hx]))
    rcases lookup_cases d w with ⟨i, hi, -⟩ | ⟨-, hn⟩
    · exact ⟨i :: is, by simp [fromWords, indexFromWord, hi, his]⟩
    · exact absurd (h w (by simp)) hn

theorem fromWords_unknown (d : Dict) (pre : List Str) (w : Str) (post : List Str) (h : ∀ x ∈ pre, x ∈ d.words)
    (hw : w ∉ d.words) : fromWords d (pre ++ w :: post) = .err (.languageError (.wordNotFound w)) := by
  induction pre with
  | nil =>
    rcases lookup_cases d w with ⟨i, hi, hi2, -⟩ | ⟨he, -⟩
    · exact absurd (List.mem_of_getElem? hi2) hw
    · simp [fromWords, indexFromWord, he]
  | cons x pre ih =>
    have := ih (fun y hy => h y (by simp [hy]))
    rcases lookup_cases d x with ⟨i, hi, -⟩ | ⟨-, hn⟩
    · simp [fromWords, indexFromWord, hi, this]
    · exact absurd (h x (by simp)) hn

theorem toStringLoop_false (d : Dict) (ws : List Str) (is : List UInt16)
    (h : List.Forall₂ (fun w (i : UInt16) => d.words[i.toNat]? = some w) ws is) :
    toStringLoop d is false = some (ws.flatMap fun w => ' ' :: w) := by
  induction h with
  | nil => rfl
  | cons h1 _ ih => simp [toStringLoop, Dict.lookupWord, h1, ih, Dict.separator]

theorem join_flatMap (sep : Char) (w : Str) (ws : List Str) :
    [sep].intercalate (w :: ws) = w ++ ws.flatMap fun w => sep :: w := by
  induction ws generalizing w with
  | nil => simp [join_single]
  | cons x t ih => rw [join_cons_cons, ih]; simp

theorem toText_words (d : Dict) (ws : List Str) (is : List UInt16)
    (h : List.Forall₂ (fun w (i : UInt16) => d.words[i.toNat]? = some w) ws is) :
    Mnemonics.toText d ⟨is⟩ = some ([' '].intercalate ws) := by
  cases h with
  | nil => rfl
  | cons h1 h2 =>
    simp [Mnemonics.toText, toStringLoop, Dict.lookupWord, h1, toStringLoop_false d _ _ h2, join_flatMap]

/-- Words of in-range indices. -/
theorem words_of_indices (d : Dict) (is : List UInt16) (h : ∀ i ∈ is, i.toNat ≤ 2047) :
    ∃ ws, List.Forall₂ (fun w (i : UInt16) => d.words[i.toNat]? = some w) ws is := by
  induction is with
  | nil => exact ⟨[], .nil⟩
  | cons i is ih =>
    obtain ⟨ws, hw⟩ := ih (fun x hx => h x (by simp [hx]))
    have := h i (by simp)
    have hl := d.len
    exact ⟨d.words[i.toNat] :: ws, .cons (by rw [List.getElem?_eq_getElem]) hw⟩

theorem mem_of_forall2 {d : Dict} {ws : List Str} {is : List UInt16}
    (h : List.Forall₂ (fun w (i : UInt16) => d.words[i.toNat]? = some w) ws is) : ∀ w ∈ ws, w ∈ d.words := by
  induction h with
  | nil => simp
  | cons h1 _ ih =>
    intro w hw
    rcases List.mem_cons.mp hw with rfl | hw
    · exact List.mem_of_getElem? h1
    · exact ih w hw

/-! ### Counts -/

theorem fromWordCount_ok {n : Nat} {t : MType} : MType.fromWordCount n = .ok t ↔ t.mnemonicCount = n := by
  unfold MType.fromWordCount
  split <;> cases t <;> simp_all [MType.mnemonicCount] <;> omega

theorem fromWordCount_err {n : Nat} (h : ∀ t : MType, t.mnemonicCount ≠ n) :
    MType.fromWordCount n = .err (.wrongNumberOfWords n) := by
  unfold MType.fromWordCount
  split
  · exact absurd rfl (h .w9)
  · exact absurd rfl (h .w12)
  · exact absurd rfl (h .w15)
  · exact absurd rfl (h .w18)
  · exact absurd rfl (h .w21)
  · exact absurd rfl (h .w24)
  · rfl

theorem fromMnemonics_ok {v : List UInt16} {m : Mnemonics} :
    Mnemonics.fromMnemonics v = .ok m ↔ m.idx = v ∧ ∃ t : MType, t.mnemonicCount = v.length := by
  simp only [Mnemonics.fromMnemonics, Res.bind_eq_ok, Res.ok.injEq, fromWordCount_ok]
  constructor
  · rintro ⟨t, ht, rfl⟩; exact ⟨rfl, t, ht⟩
  · rintro ⟨rfl, t, ht⟩; exact ⟨t, ht, rfl⟩

theorem getType_eq {m : Mnemonics} {t : MType} : m.getType = some t ↔ t.mnemonicCount = m.idx.length := by
  unfold Mnemonics.getType
  rw [← fromWordCount_ok]
  cases MType.fromWordCount m.idx.length <;> simp

/-- `from_string` in full. -/
theorem fromString_ok (d : Dict) (hg : d.Good) (s : Str) (m : Mnemonics) :
    Mnemonics.fromString d s = .ok m ↔
      List.Forall₂ (fun w (i : UInt16) => d.words[i.toNat]? = some w) (split ' ' s) m.idx ∧
      ∃ t : MType, t.mnemonicCount = m.idx.length := by
  simp only [Mnemonics.fromString, Res.bind_eq_ok, fromMnemonics_ok, fromWords_ok d hg.nodup, Dict.separator]
  constructor
  · rintro ⟨v, h1, rfl, h3⟩; exact ⟨h1, h3⟩
  · rintro ⟨h1, h3⟩; exact ⟨_, h1, rfl, h3⟩

end KC.Bip39
