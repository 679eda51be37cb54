import Verif.Spec.Split
import Verif.Model.Custom
import Verif.Proofs.Text
namespace KC.Bip39
open KC.Spec

theorem splitFrom_skip (sep : Str) (k : Nat) (s : Str) : splitFrom sep k s = splitFrom sep 0 (s.drop k) := by
  induction s generalizing k with
  | nil => simp [splitFrom]
  | cons c s ih =>
    cases k with
    | zero => rfl
    | succ k => rw [splitFrom, if_pos (by omega), Nat.add_sub_cancel, ih k]; rfl

theorem splitFrom_found {sep : Str} (h0 : sep ≠ []) (s : Str) : splitFrom sep 0 (sep ++ s) = [] :: splitFrom sep 0 s := by
  obtain ⟨c, t, rfl⟩ := List.exists_cons_of_ne_nil h0
  rw [List.cons_append, splitFrom, if_neg (by simp), if_pos (by rw [List.isPrefixOf_iff_prefix]; exact ⟨s, rfl⟩), splitFrom_skip]
  congr 2
  exact List.drop_left' (by simp)

theorem splitFrom_other {sep : Str} {c : Char} {s : Str} (h : ¬ sep <+: c :: s) :
    splitFrom sep 0 (c :: s) = match splitFrom sep 0 s with
      | [] => [[c]]
      | h :: t => (c :: h) :: t := by
  rw [splitFrom, if_neg (by simp), if_neg (by rw [List.isPrefixOf_iff_prefix]; exact h)]
  rfl

theorem splitFrom_pieces {sep : Str} (h0 : sep ≠ []) (n : Nat) : ∀ s : Str, s.length = n → Pieces sep s (splitFrom sep 0 s) := by
  induction n using Nat.strong_induction_on with
  | _ n ih =>
    intro s hs
    cases s with
    | nil =>
      refine .last [] fun pre post h => h0 ?_
      have := congrArg List.length h
      simp at this
      exact List.eq_nil_of_length_eq_zero (by omega)
    | cons c t =>
      by_cases hp : sep <+: c :: t
      · obtain ⟨r, hr⟩ := hp
        rw [← hr, splitFrom_found h0]
        have hl : r.length < n := by
          have := congrArg List.length hr
          have := List.length_pos_of_ne_nil h0
          simp at *
          omega
        refine .cons [] r _ (fun pre post h => ?_) (ih _ hl r rfl)
        have := congrArg List.length h
        simp at this
        exact List.eq_nil_of_length_eq_zero (by omega)
      · rw [splitFrom_other hp]
        have := ih t.length (by simp at hs; omega) t rfl
        generalize splitFrom sep 0 t = ws at this
        cases this with
        | last w hw =>
          refine .last _ fun pre post h => ?_
          cases pre with
          | nil => exact hp ⟨post, h.symm⟩
          | cons x pre =>
            simp only [List.cons_append, List.cons.injEq] at h
            exact hw pre post h.2
        | cons w s ws hw hp' =>
          refine .cons (c :: w) s ws (fun pre post h => ?_) hp'
          cases pre with
          | nil => exact absurd ⟨post ++ s, by rw [← List.append_assoc, ← List.nil_append sep, ← h]; simp⟩ hp
          | cons x pre =>
            simp only [List.cons_append, List.cons.injEq] at h
            exact hw pre post h.2

theorem splitFrom_free {sep : Str} (w : Str) (h : Free sep w) : splitFrom sep 0 w = [w] := by
  induction w with
  | nil => rfl
  | cons c w ih =>
    rw [splitFrom_other, ih fun pre post e => h (c :: pre) post (by rw [e]; rfl)]
    rintro ⟨r, hr⟩
    exact h [] r hr.symm

theorem splitFrom_clean {sep : Str} (h0 : sep ≠ []) (w s : Str) (h : Clean sep w) :
    splitFrom sep 0 (w ++ sep ++ s) = w :: splitFrom sep 0 s := by
  induction w with
  | nil => exact splitFrom_found h0 s
  | cons c w ih =>
    rw [List.cons_append, List.cons_append, splitFrom_other, ih fun pre post e => h (c :: pre) post (by rw [List.cons_append, e]; rfl)]
    intro hp
    have : sep <+: c :: (w ++ sep) := List.prefix_of_prefix_length_le hp ⟨s, rfl⟩ (by simp; omega)
    obtain ⟨r, hr⟩ := this
    have := h [] r hr.symm
    subst this
    have := congrArg List.length hr
    simp at this
    omega

theorem splitBy_iff {sep : Str} (h0 : sep ≠ []) (s : Str) (ws : List Str) : splitBy sep s = ws ↔ Pieces sep s ws := by
  rw [splitBy, if_neg h0]
  constructor
  · rintro rfl
    exact splitFrom_pieces h0 _ s rfl
  · intro h
    induction h with
    | last w hw => exact splitFrom_free w hw
    | cons w s ws hw _ ih => rw [splitFrom_clean h0 w s hw, ih]

theorem split_splitBy (sep : Char) (s : Str) : splitBy [sep] s = split sep s := by
  rw [splitBy, if_neg (by simp)]
  induction s with
  | nil => rfl
  | cons c s ih =>
    by_cases h : c = sep
    · subst h
      rw [split, if_pos rfl, ← ih]
      exact splitFrom_found (by simp) s
    · have hp : ¬ [sep] <+: c :: s := by
        rintro ⟨r, hr⟩
        simp at hr
        exact h hr.1.symm
      rw [split, if_neg h, ← ih, splitFrom_other hp]
      rfl

theorem pieces_join {sep s : Str} {ws : List Str} (h : Pieces sep s ws) : s = sep.intercalate ws ∧ ws ≠ [] := by
  induction h with
  | last w _ => simp [List.intercalate]
  | cons w s ws _ _ ih =>
    obtain ⟨x, t, rfl⟩ := List.exists_cons_of_ne_nil ih.2
    refine ⟨?_, by simp⟩
    rw [ih.1]
    simp [List.intercalate, List.intersperse]

theorem join_pieces (sep : Str) (ws : List Str) (w : Str) :
    Pieces sep (sep.intercalate (ws ++ [w])) (ws ++ [w]) ↔ (∀ x ∈ ws, Clean sep x) ∧ Free sep w := by
  induction ws with
  | nil =>
    constructor
    · intro h
      rw [List.nil_append] at h
      generalize sep.intercalate [w] = s at h
      cases h with
      | last _ h => exact ⟨by simp, h⟩
      | cons _ _ _ _ h => cases h
    · intro h
      simpa [List.intercalate] using Pieces.last w h.2
  | cons x ws ih =>
    have e : sep.intercalate (x :: ws ++ [w]) = x ++ sep ++ sep.intercalate (ws ++ [w]) := by
      cases ws <;> simp [List.intercalate, List.intersperse]
    rw [e]
    constructor
    · intro h
      generalize hs : x ++ sep ++ sep.intercalate (ws ++ [w]) = s at h
      rw [List.cons_append] at h
      generalize hl : x :: (ws ++ [w]) = l at h
      cases h with
      | last _ _ => simp at hl
      | cons y s l hy h =>
        cases hl
        rw [List.append_assoc, List.append_assoc, List.append_cancel_left_eq, List.append_cancel_left_eq] at hs
        subst hs
        have := ih.mp h
        exact ⟨by simpa using ⟨hy, this.1⟩, this.2⟩
    · rintro ⟨h1, h2⟩
      exact .cons x _ _ (h1 x (by simp)) (ih.mpr ⟨fun y hy => h1 y (by simp [hy]), h2⟩)

/-- A separator of one character. -/
theorem clean_char {c : Char} {w : Str} (h : c ∉ w) : Clean [c] w ∧ Free [c] w := by
  constructor
  · intro pre post e
    rw [List.append_assoc] at e
    rcases List.append_eq_append_iff.mp e with ⟨a, h1, h2⟩ | ⟨a, h1, h2⟩
    · have := congrArg List.length h2
      simp at this
      exact List.eq_nil_of_length_eq_zero (by omega)
    · cases a with
      | nil => simpa using h2
      | cons x a =>
        simp only [List.cons_append, List.nil_append, List.cons.injEq] at h2
        rw [h1, ← h2.1] at h
        simp at h
  · rintro pre post rfl
    simp at h

namespace Lang

theorem fromWords_ok (L : Lang) (ws : List Str) (is : List UInt16) :
    L.fromWords ws = .ok is ↔ List.Forall₂ (fun w i => L.lookupMnemonic w = .ok i) ws is := by
  induction ws generalizing is with
  | nil => cases is <;> simp [fromWords]
  | cons w ws ih =>
    simp only [fromWords, fromWord, Res.bind_eq_ok, Res.mapErr_eq_ok, Res.ok.injEq]
    constructor
    · rintro ⟨i, hi, t, ht, rfl⟩
      exact .cons hi ((ih t).mp ht)
    · intro h
      cases h with
      | cons h1 h2 => exact ⟨_, h1, _, (ih _).mpr h2, rfl⟩

theorem fromWords_stop (L : Lang) (pre : List Str) (w : Str) (post : List Str) (h : ∀ x ∈ pre, ∃ i, L.lookupMnemonic x = .ok i) :
    (∀ e, L.lookupMnemonic w = .err e → L.fromWords (pre ++ w :: post) = .err (.languageError e)) ∧
    (L.lookupMnemonic w = .panic → L.fromWords (pre ++ w :: post) = .panic) := by
  induction pre with
  | nil => exact ⟨fun e he => by simp [fromWords, fromWord, he], fun he => by simp [fromWords, fromWord, he]⟩
  | cons x pre ih =>
    obtain ⟨i, hi⟩ := h x (by simp)
    obtain ⟨a, b⟩ := ih fun y hy => h y (by simp [hy])
    exact ⟨fun e he => by simp [fromWords, fromWord, hi, a e he], fun he => by simp [fromWords, fromWord, hi, b he]⟩

theorem toStringLoop_some (L : Lang) (is : List UInt16) (ws : List Str) (h : List.Forall₂ (fun i w => L.lookupWord i = .ok w) is ws) :
    L.toStringLoop is false = some (ws.flatMap fun w => L.separator ++ w) := by
  induction h with
  | nil => rfl
  | cons h1 _ ih => simp [toStringLoop, toWord, h1, ih]

theorem toStringLoop_none (L : Lang) (is : List UInt16) (b : Bool) : L.toStringLoop is b = none ↔ ∃ i ∈ is, ∀ w, L.lookupWord i ≠ .ok w := by
  induction is generalizing b with
  | nil => simp [toStringLoop]
  | cons i is ih =>
    cases h : L.lookupWord i with
    | ok w =>
      have := ih false
      cases e : L.toStringLoop is false with
      | none => rw [e] at this; simpa [toStringLoop, toWord, h, e] using this
      | some t => rw [e] at this; simpa [toStringLoop, toWord, h, e] using this
    | err e => simp [toStringLoop, toWord, h]
    | panic => simp [toStringLoop, toWord, h]

theorem join_flatMap (sep w : Str) (ws : List Str) : sep.intercalate (w :: ws) = w ++ ws.flatMap fun w => sep ++ w := by
  induction ws generalizing w with
  | nil => simp [List.intercalate]
  | cons x t ih =>
    have : sep.intercalate (w :: x :: t) = w ++ sep ++ sep.intercalate (x :: t) := by simp [List.intercalate, List.intersperse]
    rw [this, ih]
    simp

theorem toText_some (L : Lang) (is : List UInt16) (ws : List Str) (h : List.Forall₂ (fun i w => L.lookupWord i = .ok w) is ws) :
    L.toText ⟨is⟩ = some (L.separator.intercalate ws) := by
  cases h with
  | nil => rfl
  | cons h1 h2 => simp [toText, toStringLoop, toWord, h1, toStringLoop_some L _ _ h2, join_flatMap]

end Lang
end KC.Bip39
