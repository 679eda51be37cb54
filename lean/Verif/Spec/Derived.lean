import Verif.Spec.Json
/-
The text forms of the types of bip39 as JSON trees, and orders, apart from the model.
-/
namespace KC.Spec.Derived
open KC.Json (Json)

/-- The names of the numbers of words. -/
def typeNames : List (Nat × String) :=
  [(9, "Type9Words"), (12, "Type12Words"), (15, "Type15Words"), (18, "Type18Words"), (21, "Type21Words"), (24, "Type24Words")]

/-- The trees that stand for a number of words. -/
inductive TypeTree : Nat → Json → Prop
  | name (n s) : (n, s) ∈ typeNames → TypeTree n (.str (some s.toList))
  | member (n s) : (n, s) ∈ typeNames → TypeTree n (.obj [(some s.toList, .null)])

/-- An object of one member. -/
def single (name : String) (j : Json) : Json := .obj [(some name.toList, j)]

/-- The order of texts by their characters' code points: the first difference decides, and a beginning of a text comes before it. -/
inductive Before : Str → Str → Prop
  | nil (c s) : Before [] (c :: s)
  | head (c d s t) : c.toNat < d.toNat → Before (c :: s) (d :: t)
  | tail (c s t) : Before s t → Before (c :: s) (c :: t)

/-- The same for lists of numbers. -/
inductive Less : List Nat → List Nat → Prop
  | nil (c s) : Less [] (c :: s)
  | head (c d s t) : c < d → Less (c :: s) (d :: t)
  | tail (c s t) : Less s t → Less (c :: s) (c :: t)

end KC.Spec.Derived
