import Verif.Model.Str
/-
What it means to cut a text at a separator.
-/
namespace KC.Spec

/-- The separator does not occur in the text. -/
def Free (sep w : Str) : Prop := ∀ pre post, w ≠ pre ++ sep ++ post

/-- In the word with the separator behind it, the separator occurs at the end only. -/
def Clean (sep w : Str) : Prop := ∀ pre post, w ++ sep = pre ++ sep ++ post → post = []

/-- The pieces of a text: each ends where the separator occurs first. -/
inductive Pieces (sep : Str) : Str → List Str → Prop
  | last (w) : Free sep w → Pieces sep w [w]
  | cons (w s ws) : Clean sep w → Pieces sep s ws → Pieces sep (w ++ sep ++ s) (w :: ws)

end KC.Spec
