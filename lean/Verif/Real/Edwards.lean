import Verif.Real.Ed25519
/-
The points of Curve25519 add, in Edwards coordinates, by the formulas of RFC 8032, 5.1.4: the group used here is that of Ed25519.
-/
namespace KC.Real.Ed25519
open KC.Real.Ec KC.Spec.Ed25519

section
variable {K : Type} [Field K] {A u1 v1 u2 v2 u3 v3 : K}

theorem gen_y (hu : u2 - u1 ≠ 0) (c1 : v1 ^ 2 = u1 ^ 3 + A * u1 ^ 2 + u1)
    (c2 : v2 ^ 2 = u2 ^ 3 + A * u2 ^ 2 + u2)
    (h3 : (v2 - v1) ^ 2 - (A * (u2 - u1) ^ 2 + (u2 - u1) ^ 3 + 2 * (u1 * (u2 - u1) ^ 2)) = u3 * (u2 - u1) ^ 2) :
    (u3 - 1) * (v1 * v2 * (u1 + 1) * (u2 + 1) - (A - 2) * u1 * u2 * (u1 - 1) * (u2 - 1)) =
      (u3 + 1) * (v1 * v2 * (u1 - 1) * (u2 - 1) - (A + 2) * u1 * u2 * (u1 + 1) * (u2 + 1)) := by
  refine mul_left_cancel₀ (pow_ne_zero 2 hu) ?_
  linear_combination -((v1 * v2 * (u1 + 1) * (u2 + 1) - (A - 2) * u1 * u2 * (u1 - 1) * (u2 - 1)) -
      (v1 * v2 * (u1 - 1) * (u2 - 1) - (A + 2) * u1 * u2 * (u1 + 1) * (u2 + 1))) * h3 + (
      2 * A * u1 ^ 2 * u2 + 2 * A * u1 * u2 ^ 2 + 4 * u1 ^ 2 * u2 ^ 2 + 4 * u1 * u2 + 2 * u1 * v1 * v2 - 4 * u1 * v2 ^
      2 + 2 * u2 * v1 * v2 - 4 * u2 * v2 ^ 2) * c1 + (
      -4 * A * u1 ^ 3 - 2 * A * u1 ^ 2 * u2 + 2 * A * u1 * u2 ^ 2 - 4 * u1 ^ 4 - 4 * u1 ^ 3 * u2 + 4 * u1 ^ 2 * u2 ^ 2
      - 4 * u1 ^ 2 + 2 * u1 * v1 * v2 + 2 * u2 * v1 * v2) * c2

theorem gen_x (hu : u2 - u1 ≠ 0) (c1 : v1 ^ 2 = u1 ^ 3 + A * u1 ^ 2 + u1)
    (c2 : v2 ^ 2 = u2 ^ 3 + A * u2 ^ 2 + u2)
    (h3 : (v2 - v1) ^ 2 - (A * (u2 - u1) ^ 2 + (u2 - u1) ^ 3 + 2 * (u1 * (u2 - u1) ^ 2)) = u3 * (u2 - u1) ^ 2)
    (k3 : (v2 - v1) * (u1 * (u2 - u1) ^ 2 - ((v2 - v1) ^ 2 - (A * (u2 - u1) ^ 2 + (u2 - u1) ^ 3 + 2 * (u1 * (u2 - u1) ^ 2)))) - v1 * (u2 - u1) ^ 3 = v3 * (u2 - u1) ^ 3) :
    u3 * (v1 * v2 * (u1 + 1) * (u2 + 1) + (A - 2) * u1 * u2 * (u1 - 1) * (u2 - 1)) =
      v3 * (u1 * v2 * (u1 + 1) * (u2 - 1) + u2 * v1 * (u2 + 1) * (u1 - 1)) := by
  refine mul_left_cancel₀ (pow_ne_zero 3 hu) ?_
  linear_combination -((u2 - u1) * (v1 * v2 * (u1 + 1) * (u2 + 1) + (A - 2) * u1 * u2 * (u1 - 1) * (u2 - 1))) * h3 +
      (u1 * v2 * (u1 + 1) * (u2 - 1) + u2 * v1 * (u2 + 1) * (u1 - 1)) * k3 + (
      -A * u1 ^ 3 * u2 ^ 2 + A * u1 ^ 3 * u2 - A * u1 ^ 2 * u2 ^ 3 - 2 * A * u1 ^ 2 * u2 ^ 2 - A * u1 ^ 2 * u2 + A *
      u1 * u2 ^ 4 + 2 * A * u1 * u2 ^ 3 + 3 * A * u1 * u2 ^ 2 - A * u2 ^ 4 - A * u2 ^ 3 + 2 * u1 ^ 3 * u2 ^ 2 - 2 * u1
      ^ 3 * u2 - 3 * u1 ^ 2 * u2 ^ 4 - 5 * u1 ^ 2 * u2 ^ 3 - u1 ^ 2 * u2 ^ 2 - 2 * u1 ^ 2 * u2 * v1 * v2 + 5 * u1 ^ 2
      * u2 * v2 ^ 2 + u1 ^ 2 * u2 - u1 ^ 2 * v2 ^ 2 + 2 * u1 * u2 ^ 5 + 5 * u1 * u2 ^ 4 + 5 * u1 * u2 ^ 3 - u1 * u2 ^
      2 * v1 ^ 2 + 4 * u1 * u2 ^ 2 * v1 * v2 - 5 * u1 * u2 ^ 2 * v2 ^ 2 - u1 * u2 ^ 2 - u1 * u2 * v1 ^ 2 + 2 * u1 * u2
      * v1 * v2 + u1 * u2 - u1 * v2 ^ 2 - 2 * u2 ^ 5 - 2 * u2 ^ 4 + u2 ^ 2 * v1 ^ 2 - 2 * u2 ^ 2 * v1 * v2 + u2 ^ 2 *
      v2 ^ 2 + u2 * v1 ^ 2 - 2 * u2 * v1 * v2 + u2 * v2 ^ 2) * c1 + (
      4 * A * u1 ^ 4 * u2 - 4 * A * u1 ^ 3 * u2 ^ 2 - 2 * A * u1 ^ 3 * u2 + A * u1 ^ 2 * u2 ^ 3 + 3 * A * u1 ^ 2 * u2
      ^ 2 - 2 * A * u1 ^ 2 * u2 - A * u1 * u2 ^ 3 + A * u1 * u2 ^ 2 + 3 * u1 ^ 5 * u2 + u1 ^ 5 - 2 * u1 ^ 4 * u2 ^ 2 -
      5 * u1 ^ 4 * u2 + u1 ^ 4 + 6 * u1 ^ 3 * u2 ^ 2 + u1 ^ 3 * u2 - u1 ^ 3 - 2 * u1 ^ 2 * u2 ^ 3 - 4 * u1 ^ 2 * u2 ^
      2 - 4 * u1 ^ 2 * u2 * v1 * v2 + u1 ^ 2 * u2 * v2 ^ 2 + u1 ^ 2 * u2 + 2 * u1 ^ 2 * v1 * v2 - u1 ^ 2 * v2 ^ 2 - u1
      ^ 2 + 2 * u1 * u2 ^ 3 + 2 * u1 * u2 ^ 2 * v1 * v2 - 2 * u1 * u2 * v1 * v2 + u1 * u2 * v2 ^ 2 + 2 * u1 * v1 * v2
      - u1 * v2 ^ 2) * c2

theorem dbl_y (hv : 2 * v1 ≠ 0) (c1 : v1 ^ 2 = u1 ^ 3 + A * u1 ^ 2 + u1)
    (h3 : (3 * u1 ^ 2 + 2 * A * u1 + 1) ^ 2 - (2 * (4 * u1 * v1 ^ 2) + A * (2 * v1) ^ 2) = u3 * (2 * v1) ^ 2) :
    (u3 - 1) * (v1 * v1 * (u1 + 1) * (u1 + 1) - (A - 2) * u1 * u1 * (u1 - 1) * (u1 - 1)) =
      (u3 + 1) * (v1 * v1 * (u1 - 1) * (u1 - 1) - (A + 2) * u1 * u1 * (u1 + 1) * (u1 + 1)) := by
  refine mul_left_cancel₀ (pow_ne_zero 2 hv) ?_
  linear_combination -((v1 * v1 * (u1 + 1) * (u1 + 1) - (A - 2) * u1 * u1 * (u1 - 1) * (u1 - 1)) -
      (v1 * v1 * (u1 - 1) * (u1 - 1) - (A + 2) * u1 * u1 * (u1 + 1) * (u1 + 1))) * h3 + (
      -16 * A ^ 2 * u1 ^ 3 - 48 * A * u1 ^ 4 - 16 * A * u1 ^ 2 - 16 * A * u1 * v1 ^ 2 - 36 * u1 ^ 5 - 24 * u1 ^ 3 - 40
      * u1 ^ 2 * v1 ^ 2 - 4 * u1 - 8 * v1 ^ 2) * c1

theorem dbl_x (hv : 2 * v1 ≠ 0) (c1 : v1 ^ 2 = u1 ^ 3 + A * u1 ^ 2 + u1)
    (h3 : (3 * u1 ^ 2 + 2 * A * u1 + 1) ^ 2 - (2 * (4 * u1 * v1 ^ 2) + A * (2 * v1) ^ 2) = u3 * (2 * v1) ^ 2)
    (k3 : (3 * u1 ^ 2 + 2 * A * u1 + 1) * (4 * u1 * v1 ^ 2 - ((3 * u1 ^ 2 + 2 * A * u1 + 1) ^ 2 - (2 * (4 * u1 * v1 ^ 2) + A * (2 * v1) ^ 2))) - 8 * v1 ^ 4 =
      v3 * (2 * v1) ^ 3) :
    u3 * (v1 * v1 * (u1 + 1) * (u1 + 1) + (A - 2) * u1 * u1 * (u1 - 1) * (u1 - 1)) =
      v3 * (u1 * v1 * (u1 + 1) * (u1 - 1) + u1 * v1 * (u1 + 1) * (u1 - 1)) := by
  refine mul_left_cancel₀ (pow_ne_zero 3 hv) ?_
  linear_combination -(2 * v1 * (v1 * v1 * (u1 + 1) * (u1 + 1) + (A - 2) * u1 * u1 * (u1 - 1) * (u1 - 1))) * h3 +
      (u1 * v1 * (u1 + 1) * (u1 - 1) + u1 * v1 * (u1 + 1) * (u1 - 1)) * k3 + (
      -24 * A ^ 2 * u1 ^ 4 * v1 + 16 * A ^ 2 * u1 ^ 3 * v1 + 8 * A ^ 2 * u1 ^ 2 * v1 - 72 * A * u1 ^ 5 * v1 + 48 * A *
      u1 ^ 4 * v1 - 8 * A * u1 ^ 2 * v1 ^ 3 + 16 * A * u1 ^ 2 * v1 - 16 * A * u1 * v1 ^ 3 + 8 * A * u1 * v1 - 8 * A *
      v1 ^ 3 - 54 * u1 ^ 6 * v1 + 36 * u1 ^ 5 * v1 - 18 * u1 ^ 4 * v1 + 24 * u1 ^ 3 * v1 - 32 * u1 ^ 2 * v1 ^ 3 + 6 *
      u1 ^ 2 * v1 - 32 * u1 * v1 ^ 3 + 4 * u1 * v1 + 2 * v1) * c1

end

/-- The addition law without denominators. -/
def Law (x1 y1 x2 y2 x3 y3 : ZMod p) : Prop :=
  x3 * (121666 - 121665 * (x1 * x2 * y1 * y2)) = 121666 * (x1 * y2 + x2 * y1) ∧
  y3 * (121666 + 121665 * (x1 * x2 * y1 * y2)) = 121666 * (y1 * y2 + x1 * x2)

theorem law_of {u1 v1 u2 v2 u3 v3 x1 y1 x2 y2 x3 y3 : ZMod p} (n1 : v1 ≠ 0) (n2 : v2 ≠ 0) (n3 : v3 ≠ 0) (m1 : u1 + 1 ≠ 0)
    (m2 : u2 + 1 ≠ 0) (m3 : u3 + 1 ≠ 0) (hx1 : x1 * v1 = root * u1) (hx2 : x2 * v2 = root * u2) (hx3 : x3 * v3 = root * u3)
    (hy1 : y1 * (u1 + 1) = u1 - 1) (hy2 : y2 * (u2 + 1) = u2 - 1) (hy3 : y3 * (u3 + 1) = u3 - 1)
    (gx : u3 * (v1 * v2 * (u1 + 1) * (u2 + 1) + (486662 - 2) * u1 * u2 * (u1 - 1) * (u2 - 1)) =
      v3 * (u1 * v2 * (u1 + 1) * (u2 - 1) + u2 * v1 * (u2 + 1) * (u1 - 1)))
    (gy : (u3 - 1) * (v1 * v2 * (u1 + 1) * (u2 + 1) - (486662 - 2) * u1 * u2 * (u1 - 1) * (u2 - 1)) =
      (u3 + 1) * (v1 * v2 * (u1 - 1) * (u2 - 1) - (486662 + 2) * u1 * u2 * (u1 + 1) * (u2 + 1))) :
    Law x1 y1 x2 y2 x3 y3 := by
  have X : x1 * x2 * (v1 * v2) = -486664 * (u1 * u2) := by
    linear_combination x2 * v2 * hx1 + root * u1 * hx2 + u1 * u2 * root_sq
  have Y : y1 * y2 * ((u1 + 1) * (u2 + 1)) = (u1 - 1) * (u2 - 1) := by
    linear_combination y2 * (u2 + 1) * hy1 + (u1 - 1) * hy2
  constructor
  · refine mul_left_cancel₀ (mul_ne_zero (mul_ne_zero n3 (mul_ne_zero n1 n2)) (mul_ne_zero m1 m2)) ?_
    linear_combination (121666 * (v1 * v2) * ((u1 + 1) * (u2 + 1)) -
        121665 * (x1 * x2 * (v1 * v2)) * (y1 * y2 * ((u1 + 1) * (u2 + 1)))) * hx3 -
      121665 * root * u3 * (y1 * y2 * ((u1 + 1) * (u2 + 1))) * X - 121665 * root * u3 * (-486664 * (u1 * u2)) * Y -
      121666 * v3 * v2 * y2 * (u2 + 1) * (u1 + 1) * hx1 - 121666 * v3 * v2 * root * u1 * (u1 + 1) * hy2 -
      121666 * v3 * v1 * y1 * (u1 + 1) * (u2 + 1) * hx2 - 121666 * v3 * v1 * root * u2 * (u2 + 1) * hy1 + 121666 * root * gx
  · refine mul_left_cancel₀ (mul_ne_zero (mul_ne_zero m3 (mul_ne_zero n1 n2)) (mul_ne_zero m1 m2)) ?_
    linear_combination (121666 * (v1 * v2) * ((u1 + 1) * (u2 + 1)) +
        121665 * (x1 * x2 * (v1 * v2)) * (y1 * y2 * ((u1 + 1) * (u2 + 1)))) * hy3 +
      (121665 * (u3 - 1) * (y1 * y2 * ((u1 + 1) * (u2 + 1))) - 121666 * (u3 + 1) * ((u1 + 1) * (u2 + 1))) * X +
      (121665 * (u3 - 1) * (-486664 * (u1 * u2)) - 121666 * (u3 + 1) * (v1 * v2)) * Y + 121666 * gy

theorem edwards_exists (P : E.Point) : ∃ x y, Edwards P x y := by
  cases P with
  | zero => exact ⟨0, 1, rfl, rfl⟩
  | some u v huv =>
    by_cases hu : u = 0
    · exact ⟨0, -1, Or.inl ⟨hu, rfl, rfl⟩⟩
    · have hv := v_ne (curve_eq huv) hu
      have hu1 := u_ne (curve_eq huv)
      exact ⟨root * u / v, (u - 1) / (u + 1), Or.inr ⟨hu, by field_simp, by field_simp⟩⟩

/-- The point of order two. -/
def T : E.Point := .some 0 0 (nonsingular (by ring))

theorem edwards_neg {P : E.Point} {x y : ZMod p} (h : Edwards P x y) : Edwards (-P) (-x) y := by
  cases P with
  | zero => exact ⟨by rw [h.1, neg_zero], h.2⟩
  | some u v huv =>
    rcases h with ⟨h1, h2, h3⟩ | ⟨h1, h2, h3⟩
    · exact Or.inl ⟨h1, by rw [h2, neg_zero], h3⟩
    · refine Or.inr ⟨h1, ?_, h3⟩
      rw [negY_eq, neg_mul_neg, h2]

theorem isRep_one {u v : ZMod p} (h : E.Nonsingular u v) : IsRep u v 1 (.some u v h : E.Point) := ⟨one_ne_zero, by ring, by ring⟩

theorem some_u_zero {u v : ZMod p} (h : E.Nonsingular u v) (hu : u = 0) : (.some u v h : E.Point) = T := by
  subst hu
  have hv : v = 0 := pow_eq_zero_iff two_ne_zero |>.mp (by rw [curve_eq h]; ring)
  subst hv
  rfl

theorem T_add_T : T + T = 0 := by
  rw [T]
  exact WeierstrassCurve.Affine.Point.add_self_of_Y_eq (by rw [negY_eq, neg_zero])

theorem edwards_T : Edwards T 0 (-1) := Or.inl ⟨rfl, rfl, rfl⟩

/-- Adding the point of order two changes both signs. -/
theorem edwards_add_T {P : E.Point} {x y : ZMod p} (h : Edwards P x y) : Edwards (P + T) (-x) (-y) := by
  cases P with
  | zero =>
    show Edwards (0 + T) _ _
    rw [zero_add, h.1, h.2, neg_zero]
    exact edwards_T
  | some u v huv =>
    rcases h with ⟨h1, h2, h3⟩ | ⟨h1, h2, h3⟩
    · rw [some_u_zero huv h1, T_add_T, h2, h3, neg_zero, neg_neg]
      exact ⟨rfl, rfl⟩
    · obtain ⟨hr, -, -⟩ := isRep_add (isRep_one huv) (isRep_one (nonsingular (u := 0) (v := 0) (by ring))) one_ne_zero one_ne_zero
      have hh : (0 : ZMod p) * 1 ^ 2 - u * 1 ^ 2 ≠ 0 := by
        intro hc
        exact h1 (by linear_combination -hc)
      have hr := hr hh
      show Edwards (_ + T) _ _
      rw [T]
      generalize (.some u v huv : E.Point) + .some 0 0 _ = S at hr
      have hc := curve_eq huv
      cases S with
      | zero =>
        have hr : (0 * 1 ^ 2 - u * 1 ^ 2) * 1 * 1 = 0 := hr
        exact absurd (by simpa using hr) h1
      | some u3 v3 h33 =>
        obtain ⟨-, ha, hb⟩ := hr
        simp only [Nat.cast_ofNat] at ha hb
        have hu3 : u3 * u = 1 := by
          refine mul_right_cancel₀ h1 ?_
          linear_combination -ha + hc
        have hv3 : v3 * u ^ 2 = -v := by
          refine mul_right_cancel₀ h1 ?_
          linear_combination hb - v * u * hu3 - v * ha
        have h31 : u3 ≠ 0 := by
          rintro rfl
          rw [zero_mul] at hu3
          exact zero_ne_one hu3
        refine Or.inr ⟨h31, ?_, ?_⟩
        · refine mul_right_cancel₀ (pow_ne_zero 2 h1) ?_
          linear_combination -x * hv3 + h2 - root * u * hu3
        · refine mul_right_cancel₀ h1 ?_
          linear_combination -h3 - (1 + y) * hu3

/-- The law holds for the coordinates of any two points and their sum. -/
theorem law {P Q : E.Point} {x1 y1 x2 y2 x3 y3 : ZMod p} (hP : Edwards P x1 y1) (hQ : Edwards Q x2 y2) (hS : Edwards (P + Q) x3 y3) :
    Law x1 y1 x2 y2 x3 y3 := by
  by_cases hP0 : P = 0
  · subst hP0
    rw [zero_add] at hS
    obtain ⟨rfl, rfl⟩ := edwards_unique hQ hS
    obtain ⟨rfl, rfl⟩ := hP
    constructor <;> ring
  by_cases hQ0 : Q = 0
  · subst hQ0
    rw [add_zero] at hS
    obtain ⟨rfl, rfl⟩ := edwards_unique hP hS
    obtain ⟨rfl, rfl⟩ := hQ
    constructor <;> ring
  by_cases hPT : P = T
  · subst hPT
    rw [add_comm] at hS
    obtain ⟨rfl, rfl⟩ := edwards_unique (edwards_add_T hQ) hS
    obtain ⟨rfl, rfl⟩ := edwards_unique edwards_T hP
    constructor <;> ring
  by_cases hQT : Q = T
  · subst hQT
    obtain ⟨rfl, rfl⟩ := edwards_unique (edwards_add_T hP) hS
    obtain ⟨rfl, rfl⟩ := edwards_unique edwards_T hQ
    constructor <;> ring
  have hc := edwards_eq hP
  by_cases hS0 : P + Q = 0
  · obtain rfl : Q = -P := (neg_eq_of_add_eq_zero_right hS0).symm
    obtain ⟨rfl, rfl⟩ := edwards_unique (edwards_neg hP) hQ
    rw [hS0] at hS
    obtain ⟨rfl, rfl⟩ := hS
    constructor
    · ring
    · linear_combination -hc
  by_cases hST : P + Q = T
  · obtain rfl : Q = -P + T := by rw [← hST]; abel
    obtain ⟨rfl, rfl⟩ := edwards_unique (edwards_add_T (edwards_neg hP)) hQ
    rw [hST] at hS
    obtain ⟨rfl, rfl⟩ := edwards_unique edwards_T hS
    constructor
    · ring
    · linear_combination hc
  cases P with
  | zero => exact absurd rfl hP0
  | some u1 v1 c1 =>
  cases Q with
  | zero => exact absurd rfl hQ0
  | some u2 v2 c2 =>
  rcases hP with ⟨n1, -, -⟩ | ⟨n1, hx1, hy1⟩
  · exact absurd (some_u_zero c1 n1) hPT
  rcases hQ with ⟨n2, -, -⟩ | ⟨n2, hx2, hy2⟩
  · exact absurd (some_u_zero c2 n2) hQT
  have c1' := curve_eq c1
  have c2' := curve_eq c2
  have hr := isRep_add (isRep_one c1) (isRep_one c2) one_ne_zero one_ne_zero
  have hd := isRep_dbl two_ne (isRep_one c1)
  generalize hSS : (.some u1 v1 c1 : E.Point) + .some u2 v2 c2 = S at *
  cases S with
  | zero => exact absurd rfl hS0
  | some u3 v3 c3 =>
  rcases hS with ⟨n3, -, -⟩ | ⟨n3, hx3, hy3⟩
  · exact absurd (some_u_zero c3 n3) hST
  by_cases hu : u2 - u1 = 0
  · obtain rfl : u1 = u2 := (sub_eq_zero.mp hu).symm
    have hv : v2 - v1 = 0 := by
      by_contra hv
      exact hS0 (hr.2.2 (by simp) (by simpa using hv))
    obtain rfl : v1 = v2 := (sub_eq_zero.mp hv).symm
    rw [hSS] at hd
    obtain ⟨hz, ha, hb⟩ := hd
    simp only [Nat.cast_ofNat, Nat.cast_one, mul_one, one_pow] at hz ha hb
    exact law_of (v_ne c1' n1) (v_ne c2' n2) (v_ne (curve_eq c3) n3) (u_ne c1') (u_ne c2') (u_ne (curve_eq c3)) hx1 hx2 hx3 hy1 hy2 hy3
      (dbl_x hz c1' ha hb) (dbl_y hz c1' ha)
  · obtain ⟨hz, ha, hb⟩ := hr.1 (by simpa using hu)
    simp only [Nat.cast_ofNat, mul_one, one_pow] at hz ha hb
    exact law_of (v_ne c1' n1) (v_ne c2' n2) (v_ne (curve_eq c3) n3) (u_ne c1') (u_ne c2') (u_ne (curve_eq c3)) hx1 hx2 hx3 hy1 hy2 hy3
      (gen_x hu c1' c2' ha hb) (gen_y hu c1' c2' ha)

/-- A square root of -1. -/
def im : Nat := 19681161376707505956807079304988542015446066515923890162744021073123829784752

theorem im_sq : (im : ZMod p) ^ 2 = -1 := by
  have := natCast_eq (im ^ 2 + 1) 0 (by decide +kernel)
  push_cast at this
  linear_combination this

theorem c_ne : (121666 : ZMod p) ≠ 0 := by exact_mod_cast const_ne 121666 (by decide +kernel)

/-- The law has no exceptions. -/
theorem denom_ne {P Q : E.Point} {x1 y1 x2 y2 : ZMod p} (hP : Edwards P x1 y1) (hQ : Edwards Q x2 y2) (e : ZMod p) (he : e ^ 2 = 1) :
    121666 + e * (121665 * (x1 * x2 * y1 * y2)) ≠ 0 := by
  intro h
  have c1 := edwards_eq hP
  have c2 := edwards_eq hQ
  have hD : 121665 * (x1 * x2 * y1 * y2) = -121666 * e := by linear_combination e * h - 121665 * (x1 * x2 * y1 * y2) * he
  have he0 : e ≠ 0 := by
    rintro rfl
    exact zero_ne_one (by linear_combination he)
  have hxy : x1 * y1 ≠ 0 := by
    intro h0
    refine mul_ne_zero c_ne he0 ?_
    linear_combination hD - 121665 * x2 * y2 * h0
  have key : ∀ t : ZMod p, t ^ 2 = -1 → t * x2 + y2 ≠ 0 → False := by
    intro t ht hne
    have hm : 121666 * (t * x1 + e * y1) ^ 2 = -121665 * (x1 * y1 * (t * x2 + y2)) ^ 2 := by
      refine mul_left_cancel₀ c_ne ?_
      linear_combination 121666 * c1 + 121665 * x1 ^ 2 * y1 ^ 2 * c2 + 121666 ^ 2 * x1 ^ 2 * ht + 121666 ^ 2 * y1 ^ 2 * he +
        121665 * 121666 * x1 ^ 2 * y1 ^ 2 * x2 ^ 2 * ht + 121666 * 2 * t * x1 * y1 * hD -
        (121665 * (x1 * x2 * y1 * y2) - 121666 * e) * hD - 121666 ^ 2 * he
    refine nonsquare (121665 * 121666) (by decide +kernel) (by decide +kernel)
      (im * 121666 * (t * x1 + e * y1) / (x1 * y1 * (t * x2 + y2))) ?_
    rw [div_pow, div_eq_iff (pow_ne_zero 2 (mul_ne_zero hxy hne))]
    push_cast
    linear_combination 121666 ^ 2 * (t * x1 + e * y1) ^ 2 * im_sq - 121666 * hm
  by_cases h1 : (im : ZMod p) * x2 + y2 = 0
  · by_cases h2 : -(im : ZMod p) * x2 + y2 = 0
    · have : y2 = 0 := (mul_eq_zero.mp (show 2 * y2 = 0 by linear_combination h1 + h2)).resolve_left two_ne
      refine mul_ne_zero c_ne he0 ?_
      rw [this] at hD
      linear_combination hD
    · exact key _ (by rw [neg_sq, im_sq]) h2
  · exact key _ im_sq h1

/-- Every solution of the curve equation of RFC 8032 is a point. -/
theorem edwards_surj {x y : ZMod p} (h : 121666 * (-x ^ 2 + y ^ 2) = 121666 - 121665 * x ^ 2 * y ^ 2) : ∃ P, Edwards P x y := by
  by_cases hx : x = 0
  · subst hx
    have h' : 121666 * ((y - 1) * (y + 1)) = 0 := by linear_combination h
    rcases mul_eq_zero.mp ((mul_eq_zero.mp h').resolve_left c_ne) with h | h
    · exact ⟨0, rfl, sub_eq_zero.mp h⟩
    · exact ⟨T, Or.inl ⟨rfl, rfl, by linear_combination h⟩⟩
  · have hy : 1 - y ≠ 0 := by
      intro h1
      obtain rfl : y = 1 := by linear_combination -h1
      exact hx (pow_eq_zero_iff two_ne_zero |>.mp (by linear_combination -h))
    have hy' : 1 + y ≠ 0 := by
      intro h1
      obtain rfl : y = -1 := by linear_combination h1
      exact hx (pow_eq_zero_iff two_ne_zero |>.mp (by linear_combination -h))
    have hu : (1 + y) / (1 - y) ≠ 0 := div_ne_zero hy' hy
    refine ⟨.some ((1 + y) / (1 - y)) (root * ((1 + y) / (1 - y)) / x) (nonsingular ?_), Or.inr ⟨hu, ?_, ?_⟩⟩
    · rw [div_pow, mul_pow, root_sq]
      field_simp
      linear_combination 4 * h
    · field_simp
    · field_simp
      ring

/-- The constant of the curve (RFC 8032, 5.1). -/
def d : ZMod p := -121665 / 121666

/-- RFC 8032, 5.1.4: sums in Edwards coordinates. -/
theorem edwards_add {P Q : E.Point} {x1 y1 x2 y2 : ZMod p} (hP : Edwards P x1 y1) (hQ : Edwards Q x2 y2) :
    1 + d * x1 * x2 * y1 * y2 ≠ 0 ∧ 1 - d * x1 * x2 * y1 * y2 ≠ 0 ∧
    Edwards (P + Q) ((x1 * y2 + x2 * y1) / (1 + d * x1 * x2 * y1 * y2)) ((y1 * y2 + x1 * x2) / (1 - d * x1 * x2 * y1 * y2)) := by
  have hd : 121666 * d = -121665 := by
    have := c_ne
    rw [d]
    field_simp
  have h1 : 1 + d * x1 * x2 * y1 * y2 ≠ 0 := by
    intro h
    refine denom_ne hP hQ (-1) (by ring) ?_
    linear_combination 121666 * h - x1 * x2 * y1 * y2 * hd
  have h2 : 1 - d * x1 * x2 * y1 * y2 ≠ 0 := by
    intro h
    refine denom_ne hP hQ 1 (by ring) ?_
    linear_combination 121666 * h + x1 * x2 * y1 * y2 * hd
  refine ⟨h1, h2, ?_⟩
  obtain ⟨x3, y3, h3⟩ := edwards_exists (P + Q)
  obtain ⟨hx, hy⟩ := law hP hQ h3
  have ex : x3 = (x1 * y2 + x2 * y1) / (1 + d * x1 * x2 * y1 * y2) := by
    rw [eq_div_iff h1]
    refine mul_left_cancel₀ c_ne ?_
    linear_combination hx + x3 * (x1 * x2 * y1 * y2) * hd
  have ey : y3 = (y1 * y2 + x1 * x2) / (1 - d * x1 * x2 * y1 * y2) := by
    rw [eq_div_iff h2]
    refine mul_left_cancel₀ c_ne ?_
    linear_combination hy - y3 * (x1 * x2 * y1 * y2) * hd
  rw [← ex, ← ey]
  exact h3

/-- The base point of RFC 8032, 5.1. -/
theorem edwards_B : Edwards B
    (15112221349535400772501151409588531511454012693041857206046113283949847762202 : Nat)
    (46316835694926478169428394003475163141307993866256225615783033603165251855960 : Nat) := by
  refine Or.inr ⟨const_ne bu (by decide +kernel), ?_, ?_⟩
  · rw [← Nat.cast_mul, ← Nat.cast_mul]
    exact natCast_eq _ _ (by decide +kernel)
  · have := natCast_eq (46316835694926478169428394003475163141307993866256225615783033603165251855960 * (bu + 1) + 1) bu (by decide +kernel)
    rw [Nat.cast_add, Nat.cast_mul, Nat.cast_add, Nat.cast_one] at this
    linear_combination this

end KC.Real.Ed25519
