import Verif.Spec.Bits
/-
Specification vocabulary of BIP-39, from the standard: a phrase of `n` words carries `32 * (n / 3)` bits of entropy
followed by `n / 3` bits of checksum.
-/
namespace KC.Spec

/-- Supported word counts. -/
def wordCounts : List Nat := [9, 12, 15, 18, 21, 24]

/-- Entropy bits of a phrase of `n` words. -/
def entBits (n : Nat) : Nat := 32 * (n / 3)

/-- Checksum bits of a phrase of `n` words. -/
def csBits (n : Nat) : Nat := n / 3

/-- The phrase (as indices) carries entropy `e` with a correct checksum under `sha256`. -/
def Carries (sha256 : List UInt8 → List UInt8) (idx : List UInt16) (e : List UInt8) : Prop :=
  wordsBits idx = bytesBits e ++ (bytesBits (sha256 e)).take (csBits idx.length) ∧
  8 * e.length = entBits idx.length

/-- A text is the given words separated by single spaces. -/
def spaced (ws : List (List Char)) : List Char := [' '].intercalate ws

end KC.Spec
