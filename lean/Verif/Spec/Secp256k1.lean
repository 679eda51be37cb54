import Verif.Real.EcNat
import Verif.Real.SecpPrimes
import Verif.Spec.Bip32
/-
secp256k1 (SEC 2, 2.4.1) as a group, on Mathlib's points of an elliptic curve, and what ECDSA (SEC 1, 4.1) asks of a signature.
-/
namespace KC.Spec.Secp256k1
open KC.Real KC.Real.Ec

/-- SEC 2: the field. -/
def p : Nat := 115792089237316195423570985008687907853269984665640564039457584007908834671663

/-- SEC 2: the group order. -/
abbrev n : Nat := Secp.order

theorem p_eq : p = 2 ^ 256 - 2 ^ 32 - 977 := by decide +kernel
theorem n_eq : n = 115792089237316195423570985008687907852837564279074904382605163141518161494337 := by decide +kernel

instance p_prime : Fact p.Prime := ⟨Real.Secp256k1.prime_115792089237316195423570985008687907853269984665640564039457584007908834671663⟩
instance n_prime : Fact n.Prime := ⟨Real.Secp256k1.prime_115792089237316195423570985008687907852837564279074904382605163141518161494337⟩

/-- SEC 2: the base point. -/
def gx : Nat := 0x79BE667EF9DCBBAC55A06295CE870B07029BFCDB2DCE28D959F2815B16F81798
def gy : Nat := 0x483ADA7726A3C4655DA4FBFC0E1108A8FD17B448A68554199C47D08FFB10D4B8

/-- y² = x³ + 7. -/
abbrev E : WeierstrassCurve.Affine (ZMod p) := Ec.Curve p 0 0 7

theorem two_ne : (2 : ZMod p) ≠ 0 := by
  have : ((2 : Nat) : ZMod p) ≠ 0 := by
    rw [Ne, ← mod_zero]
    decide +kernel
  exact_mod_cast this

theorem const_ne (x : Nat) (h : x % p ≠ 0) : (x : ZMod p) ≠ 0 := by rwa [Ne, ← mod_zero]

theorem natCast_eq (x y : Nat) (h : x % p = y % p) : (x : ZMod p) = (y : ZMod p) := (ZMod.natCast_eq_natCast_iff x y p).mpr h

theorem equation_iff (x y : ZMod p) : E.Equation x y ↔ y ^ 2 = x ^ 3 + 7 := by
  rw [WeierstrassCurve.Affine.equation_iff]
  simp [Ec.curve]

theorem g_eq : (gy : ZMod p) ^ 2 = (gx : ZMod p) ^ 3 + 7 := by
  have := natCast_eq (gy ^ 2) (gx ^ 3 + 7) (by decide +kernel)
  push_cast at this
  exact this

theorem nonsingular {x y : ZMod p} (h : y ^ 2 = x ^ 3 + 7) : E.Nonsingular x y := by
  rw [WeierstrassCurve.Affine.nonsingular_iff]
  refine ⟨(equation_iff x y).mpr h, ?_⟩
  by_contra hc
  rw [not_or, not_not, not_not] at hc
  obtain ⟨h1, h2⟩ := hc
  have h1 : (0 : ZMod p) * y = 3 * x ^ 2 + 2 * 0 * x + 0 := by simpa [Ec.curve] using h1
  have h2 : y = -y - 0 * x - 0 := by simpa [Ec.curve] using h2
  have hy : 2 * y = 0 := by linear_combination h2
  have hy : y = 0 := (mul_eq_zero.mp hy).resolve_left two_ne
  have hx : 3 * x ^ 2 = 0 := by linear_combination -h1
  have hx : x = 0 := pow_eq_zero_iff (two_ne_zero) |>.mp ((mul_eq_zero.mp hx).resolve_left (const_ne 3 (by decide +kernel)))
  rw [hy, hx] at h
  refine const_ne 7 (by decide +kernel) ?_
  push_cast
  linear_combination -h

/-- The base point. -/
def G : E.Point := .some (gx : ZMod p) (gy : ZMod p) (nonsingular g_eq)

/-- `b` is the uncompressed form of the point. -/
def Uncompressed (P : E.Point) (b : Bytes) : Prop :=
  ∃ x y h, P = .some x y h ∧ ∃ bx by' : Bytes, Bip32.IsBe 32 x.val bx ∧ Bip32.IsBe 32 y.val by' ∧ b = [4] ++ bx ++ by'

/-- `b` is the compressed form of the point: 2 or 3 for an even or odd second coordinate, then the first. -/
def Compressed (P : E.Point) (b : Bytes) : Prop :=
  ∃ x y h, P = .some x y h ∧ ∃ bx : Bytes, Bip32.IsBe 32 x.val bx ∧ b = [if y.val % 2 = 0 then 2 else 3] ++ bx

/-- `(r, s)` is a signature of `z` for the public key `Q`. -/
def Valid (z r s : Nat) (Q : E.Point) : Prop :=
  (r : ZMod n) ≠ 0 ∧ (s : ZMod n) ≠ 0 ∧
    ∃ x y h, ((s : ZMod n)⁻¹ * z).val • G + ((s : ZMod n)⁻¹ * r).val • Q = .some x y h ∧ ((x.val : Nat) : ZMod n) = r

/-- SEC 1, 4.1.6: there is exactly one point with first coordinate `r` and a second coordinate of parity `v`, and `Q` is computed
from it, the signature and `z`. -/
def Recovers (z r s v : Nat) (Q : E.Point) : Prop :=
  (∃! R : E.Point, ∃ x y h, R = .some x y h ∧ x.val = r ∧ y.val % 2 = v) ∧
  ∀ x y h, x.val = r → y.val % 2 = v →
    Q = ((r : ZMod n)⁻¹ * s).val • (.some x y h : E.Point) - ((r : ZMod n)⁻¹ * z).val • G

end KC.Spec.Secp256k1
