import Verif.Spec.KeyPath
import Verif.Spec.CApi
/-
Where a debug build and a release build part: texts of key paths with a hardened number that does not fit.
-/
namespace KC.Spec

/-- A path text whose first part that a checked build cannot take has a `'` and a number from 2^31 on. -/
def Overflows (path : List Char) : Prop :=
  ∃ m x t pre post n, path = slashed (m :: (pre ++ x :: post)) ∧ (∀ s ∈ m :: (pre ++ x :: post), '/' ∉ s) ∧
    (pre ++ x :: post).length = 5 ∧ Trimmed m ['m'] ∧ (∀ s ∈ pre, ∃ v, Component true s v) ∧ Trimmed x t ∧ PartText t true n ∧ 2 ^ 31 ≤ n

/-- The operation of a C program asks for the path of such a text. -/
def C.AsksOverflow : C.Op → Prop
  | .call _ (.keypathFromString s) .. => ∃ t, s.val = Str.utf8 t ∧ Overflows t
  | _ => False

end KC.Spec
