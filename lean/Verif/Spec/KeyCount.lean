import Mathlib.Data.Set.Card
import Verif.Spec.Bip32
/-
The 64-byte hash values by what a key made from them is, stated without the model's functions.
-/
namespace KC.Spec.KeyCount
open KC.Spec.Bip32

/-- 64 bytes whose first half is the number of a secret. -/
def Root64 : Set Bytes := {v | v.length = 64 ∧ 0 < be (v.take 32) ∧ be (v.take 32) < n}

/-- 64 bytes whose first half is the number of a secret that is not the opposite of `k`. -/
def Child64 (k : Nat) : Set Bytes := {v | v.length = 64 ∧ 0 < be (v.take 32) ∧ be (v.take 32) < n ∧ (be (v.take 32) + k) % n ≠ 0}

/-- 64 bytes whose first half is no secret. -/
def Bad64 : Set Bytes := {v | v.length = 64 ∧ (be (v.take 32) = 0 ∨ n ≤ be (v.take 32))}

/-- 64 bytes whose first half is the opposite of `k`. -/
def Zero64 (k : Nat) : Set Bytes := {v | v.length = 64 ∧ 0 < be (v.take 32) ∧ be (v.take 32) < n ∧ (be (v.take 32) + k) % n = 0}

end KC.Spec.KeyCount
