import Verif.Real.EcNat
import Verif.Real.Ed25519Primes
import Verif.Spec.Bip32
/-
Ed25519 (RFC 8032): the group, on Mathlib's points of an elliptic curve (Curve25519 of RFC 7748), the Edwards coordinates of its
points and their encoding, and what a signature has to satisfy.
-/
namespace KC.Spec.Ed25519
open KC.Real KC.Real.Ec

/-- RFC 8032, 5.1: the field. -/
def p : Nat := 57896044618658097711785492504343953926634992332820282019728792003956564819949

/-- RFC 8032, 5.1: the order of the base point. -/
def l : Nat := 7237005577332262213973186563042994240857116359379907606001950938285454250989

theorem p_eq : p = 2 ^ 255 - 19 := by decide +kernel
theorem l_eq : l = 2 ^ 252 + 27742317777372353535851937790883648493 := by decide +kernel

instance p_prime : Fact p.Prime := ⟨Real.Ed25519.prime_57896044618658097711785492504343953926634992332820282019728792003956564819949⟩
instance l_prime : Fact l.Prime := ⟨Real.Ed25519.prime_7237005577332262213973186563042994240857116359379907606001950938285454250989⟩

theorem const_ne (x : Nat) (h : x % p ≠ 0) : (x : ZMod p) ≠ 0 := by rwa [Ne, ← mod_zero]

theorem natCast_eq (x y : Nat) (h : x % p = y % p) : (x : ZMod p) = (y : ZMod p) := (ZMod.natCast_eq_natCast_iff x y p).mpr h

theorem two_ne : (2 : ZMod p) ≠ 0 := by exact_mod_cast const_ne 2 (by decide +kernel)

/-- Curve25519: v² = u³ + 486662 u² + u. -/
abbrev E : WeierstrassCurve.Affine (ZMod p) := Ec.Curve p 486662 1 0

theorem equation_iff (u v : ZMod p) : E.Equation u v ↔ v ^ 2 = u ^ 3 + 486662 * u ^ 2 + u := by
  rw [WeierstrassCurve.Affine.equation_iff]
  simp [Ec.curve]

theorem nonsingular {u v : ZMod p} (h : v ^ 2 = u ^ 3 + 486662 * u ^ 2 + u) : E.Nonsingular u v := by
  rw [WeierstrassCurve.Affine.nonsingular_iff]
  refine ⟨(equation_iff u v).mpr h, ?_⟩
  by_contra hc
  rw [not_or, not_not, not_not] at hc
  obtain ⟨h1, h2⟩ := hc
  have h1 : 3 * u ^ 2 + 2 * 486662 * u + 1 = 0 := by
    simp [Ec.curve] at h1
    linear_combination -h1
  have h2 : v = -v := by simpa [Ec.curve] using h2
  have hv : 2 * v = 0 := by linear_combination h2
  have hv : v = 0 := (mul_eq_zero.mp hv).resolve_left two_ne
  rw [hv] at h
  refine const_ne (486662 ^ 2 - 4) (by decide +kernel) ?_
  have e : ((486662 ^ 2 - 4 : Nat) : ZMod p) = 486662 ^ 2 - 4 := by norm_num
  rw [e]
  linear_combination (486662 ^ 2 - 4 + (2 * 486662 ^ 3 - 7 * 486662) * u + (2 * 486662 ^ 2 - 6) * u ^ 2) * h1 -
    (-(4 * 486662 ^ 3) + 15 * 486662 + (-6 * 486662 ^ 2 + 18) * u) * h

/-- RFC 7748, 4.1: the base point, U(P) and V(P). -/
def bu : Nat := 9
def bv : Nat := 14781619447589544791020593568409986887264606134616475288964881837755586237401

theorem b_eq : (bv : ZMod p) ^ 2 = (bu : ZMod p) ^ 3 + 486662 * (bu : ZMod p) ^ 2 + bu := by
  have := natCast_eq (bv ^ 2) (bu ^ 3 + 486662 * bu ^ 2 + bu) (by decide +kernel)
  push_cast at this
  exact this

/-- The base point. -/
def B : E.Point := .some (bu : ZMod p) (bv : ZMod p) (nonsingular b_eq)

/-- The square root of -486664 in RFC 7748, 4.1. -/
def root : Nat := 51042569399160536130206135233146329284152202253034631822681833788666877215207

/-- RFC 7748, 4.1: `(x, y)` are the Edwards coordinates of the point: x = root u / v and y = (u - 1) / (u + 1); the points where a
denominator is zero are the neutral one, (0, 1), and the one of order two, (0, -1). -/
def Edwards : E.Point → ZMod p → ZMod p → Prop
  | .zero, x, y => x = 0 ∧ y = 1
  | .some u v _, x, y => (u = 0 ∧ x = 0 ∧ y = -1) ∨ (u ≠ 0 ∧ x * v = root * u ∧ y * (u + 1) = u - 1)

/-- `b` is the little-endian form of `x` in `k` bytes. -/
def IsLe (k x : Nat) (b : Bytes) : Prop := Bip32.IsBe k x b.reverse

/-- The number written by `b`, last byte most significant. -/
def le (b : Bytes) : Nat := Bip32.be b.reverse

/-- RFC 8032, 5.1.2: y in 255 bits and the lowest bit of x, little-endian. -/
def Encodes (P : E.Point) (b : Bytes) : Prop := ∃ x y, Edwards P x y ∧ IsLe 32 (y.val + 2 ^ 255 * (x.val % 2)) b

/-- RFC 8032, 5.1.7: `R ‖ S` is a signature of `m` for the public key `A`. -/
def Valid (H : Hashes) (A : E.Point) (m R S : Bytes) : Prop :=
  ∃ P a, Encodes P R ∧ Encodes A a ∧ le S • B = P + le (H.sha512 (R ++ a ++ m)) • A

end KC.Spec.Ed25519
