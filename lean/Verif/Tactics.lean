import Mathlib.Tactic.ByContra
import Mathlib.Tactic.Set
import Mathlib.Tactic.IntervalCases
import Mathlib.Tactic.SplitIfs
/-
Tactics used by the proofs.
-/
