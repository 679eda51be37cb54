import Mathlib.Data.List.Forall2
import Verif.Spec.Wallet
/-
The phrases of a size with a correct checksum, independently of how they come about.
-/
namespace KC.Spec.Uniform
open KC.Spec
open KC.Mnemonic (Language)

/-- The text is a phrase of the language for `size` bits of entropy whose checksum is right. -/
def Checked (sha256 : Bytes → Bytes) (size : Nat) (l : Language) (text : Str) : Prop :=
  ∃ idx ws e, idx.length = size / 32 * 3 ∧ Carries sha256 idx e ∧
    List.Forall₂ (fun w (i : UInt16) => l.toDict.words[i.toNat]? = some w) ws idx ∧ text = spaced ws

end KC.Spec.Uniform
