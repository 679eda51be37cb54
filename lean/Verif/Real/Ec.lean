import Mathlib.AlgebraicGeometry.EllipticCurve.Affine.Point
import Mathlib.Data.ZMod.Basic
import Mathlib.Algebra.Field.ZMod
import Mathlib.Tactic.FieldSimp
import Mathlib.Tactic.LinearCombination
import Verif.Real.Sha2
/-
Arithmetic on the curve y² = x³ + a x² + b x + c over a prime field, on numbers that the kernel can evaluate, and its agreement
with the group of points in Mathlib.
-/
namespace KC.Real.Ec

section Field
variable {K : Type} [Field K] [DecidableEq K]

/-- The curve y² = x³ + a x² + b x + c. -/
def curve (a b c : K) : WeierstrassCurve.Affine K := { a₁ := 0, a₂ := a, a₃ := 0, a₄ := b, a₆ := c }

/-- `(X/Z², Y/Z³)` is the point; `Z = 0` is the point at infinity. -/
def IsRep {a b c : K} (X Y Z : K) : (curve a b c).Point → Prop
  | .zero => Z = 0
  | .some x y _ => Z ≠ 0 ∧ X = x * Z ^ 2 ∧ Y = y * Z ^ 3

theorem negY_eq (a b c x y : K) : (curve a b c).negY x y = -y := by
  simp [WeierstrassCurve.Affine.negY, curve]

theorem isRep_dbl {a b c X Y Z : K} (h2 : (2 : K) ≠ 0) {P : (curve a b c).Point} (h : IsRep X Y Z P) :
    let S := 4 * X * Y ^ 2
    let M := 3 * X ^ 2 + 2 * a * X * Z ^ 2 + b * Z ^ 4
    let Z3 := 2 * Y * Z
    let X3 := M ^ 2 - (2 * S + a * Z3 ^ 2)
    IsRep X3 (M * (S - X3) - 8 * Y ^ 4) Z3 (P + P) := by
  intro S M Z3 X3
  cases P with
  | zero =>
    have hz : Z = 0 := h
    show IsRep _ _ _ (0 + 0 : (curve a b c).Point)
    rw [add_zero]
    show Z3 = 0
    simp [Z3, hz]
  | some x y hxy =>
    obtain ⟨hz, rfl, rfl⟩ := h
    by_cases hy : y = 0
    · subst hy
      rw [WeierstrassCurve.Affine.Point.add_self_of_Y_eq (by rw [negY_eq, neg_zero])]
      show Z3 = 0
      simp [Z3]
    · have hne : y ≠ (curve a b c).negY x y := by
        rw [negY_eq]
        intro h
        have : 2 * y = 0 := by linear_combination h
        rcases mul_eq_zero.mp this with h | h
        · exact h2 h
        · exact hy h
      rw [WeierstrassCurve.Affine.Point.add_self_of_Y_ne hne]
      have hsl : (curve a b c).slope x x y y = (3 * x ^ 2 + 2 * a * x + b) / (2 * y) := by
        rw [WeierstrassCurve.Affine.slope_of_Y_ne rfl hne, negY_eq]
        simp [curve]
        ring_nf
      refine ⟨?_, ?_, ?_⟩
      · simp only [Z3]
        exact mul_ne_zero (mul_ne_zero h2 (mul_ne_zero hy (pow_ne_zero 3 hz))) hz
      · rw [hsl]
        simp only [WeierstrassCurve.Affine.addX, curve, X3, Z3, M, S]
        field_simp
        ring
      · rw [hsl]
        simp only [WeierstrassCurve.Affine.addY, WeierstrassCurve.Affine.negAddY, WeierstrassCurve.Affine.addX,
          WeierstrassCurve.Affine.negY, curve, X3, Z3, M, S]
        field_simp
        ring

theorem isRep_add {a b c X1 Y1 Z1 X2 Y2 Z2 : K} {P Q : (curve a b c).Point} (h1 : IsRep X1 Y1 Z1 P) (h2 : IsRep X2 Y2 Z2 Q)
    (hz1 : Z1 ≠ 0) (hz2 : Z2 ≠ 0) :
    let U1 := X1 * Z2 ^ 2
    let S1 := Y1 * Z2 ^ 3
    let H := X2 * Z1 ^ 2 - U1
    let R := Y2 * Z1 ^ 3 - S1
    (H ≠ 0 →
      let Z3 := H * Z1 * Z2
      let X3 := R ^ 2 - (a * Z3 ^ 2 + H ^ 3 + 2 * (U1 * H ^ 2))
      IsRep X3 (R * (U1 * H ^ 2 - X3) - S1 * H ^ 3) Z3 (P + Q)) ∧
    (H = 0 → R = 0 → Q = P) ∧ (H = 0 → R ≠ 0 → P + Q = 0) := by
  intro U1 S1 H R
  cases P with
  | zero => exact absurd h1 hz1
  | some x1 y1 hp =>
  cases Q with
  | zero => exact absurd h2 hz2
  | some x2 y2 hq =>
  obtain ⟨-, rfl, rfl⟩ := h1
  obtain ⟨-, rfl, rfl⟩ := h2
  have hH : H = (x2 - x1) * (Z1 ^ 2 * Z2 ^ 2) := by simp only [H, U1]; ring
  have hR : R = (y2 - y1) * (Z1 ^ 3 * Z2 ^ 3) := by simp only [R, S1]; ring
  have hH0 : H = 0 ↔ x1 = x2 := by
    rw [hH, mul_eq_zero, sub_eq_zero]
    constructor
    · rintro (h | h)
      · exact h.symm
      · exact absurd h (mul_ne_zero (pow_ne_zero _ hz1) (pow_ne_zero _ hz2))
    · intro h; exact Or.inl h.symm
  have hR0 : R = 0 ↔ y1 = y2 := by
    rw [hR, mul_eq_zero, sub_eq_zero]
    constructor
    · rintro (h | h)
      · exact h.symm
      · exact absurd h (mul_ne_zero (pow_ne_zero _ hz1) (pow_ne_zero _ hz2))
    · intro h; exact Or.inl h.symm
  refine ⟨?_, ?_, ?_⟩
  · intro hne Z3 X3
    have hx : x1 ≠ x2 := fun h => hne (hH0.mpr h)
    have hd : x1 - x2 ≠ 0 := sub_ne_zero.mpr hx
    rw [WeierstrassCurve.Affine.Point.add_of_X_ne hx]
    have hsl : (curve a b c).slope x1 x2 y1 y2 = (y1 - y2) / (x1 - x2) := WeierstrassCurve.Affine.slope_of_X_ne hx
    refine ⟨mul_ne_zero (mul_ne_zero hne hz1) hz2, ?_, ?_⟩
    · rw [hsl]
      simp only [WeierstrassCurve.Affine.addX, curve, X3, Z3, R, H, U1, S1]
      field_simp
      ring
    · rw [hsl]
      simp only [WeierstrassCurve.Affine.addY, WeierstrassCurve.Affine.negAddY, WeierstrassCurve.Affine.addX,
          WeierstrassCurve.Affine.negY, curve, X3, Z3, R, H, U1, S1]
      field_simp
      ring
  · intro h h'
    obtain rfl := hH0.mp h
    obtain rfl := hR0.mp h'
    rfl
  · intro h h'
    obtain rfl := hH0.mp h
    have hne : y1 ≠ y2 := fun e => h' (hR0.mpr e)
    have : y1 = (curve a b c).negY x1 y2 := by
      rcases WeierstrassCurve.Affine.Y_eq_of_X_eq hp.1 hq.1 rfl with e | e
      · exact absurd e hne
      · exact e
    exact WeierstrassCurve.Affine.Point.add_of_Y_eq rfl this

end Field
end KC.Real.Ec
