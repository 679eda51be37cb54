import Verif.Spec.Bip32
/-
Little-endian numbers.
-/
namespace KC.Spec.Le

/-- The number written by `b`, first byte least significant. -/
def le (b : Bytes) : Nat := Bip32.be b.reverse

/-- `b` is the little-endian form of `x` in `k` bytes. -/
def IsLe (k x : Nat) (b : Bytes) : Prop := b.length = k ∧ le b = x

end KC.Spec.Le
