import Verif.Real.Ec
import Verif.Real.Primes
import Mathlib.FieldTheory.Finite.Basic
/-
The same arithmetic on natural numbers modulo `p`: what the kernel evaluates.
-/
namespace KC.Real.Ec

/-- Difference modulo `p`. -/
def subm (p x y : Nat) : Nat := (x + (p - y % p)) % p

theorem subm_cast (p x y : Nat) (hp : 0 < p) : ((subm p x y : Nat) : ZMod p) = x - y := by
  have h : y % p ≤ p := (Nat.mod_lt y hp).le
  rw [subm, ZMod.natCast_mod, Nat.cast_add, Nat.cast_sub h, ZMod.natCast_self, ZMod.natCast_mod]
  ring

/-- Extended Euclid; the result is checked where it is used. -/
def egcd (p : Nat) : Nat → Nat → Nat → Nat → Nat → Nat
  | 0, _, _, t, _ => t
  | f + 1, r0, r1, t0, t1 =>
    if r1 = 0 then t0
    else force (r0 % r1) fun r2 => force ((t0 + r0 / r1 * (p - t1)) % p) fun t2 => egcd p f r1 r2 t1 t2

/-- The inverse modulo the prime `p`. -/
def inv (p a : Nat) : Nat :=
  force (egcd p 800 p (a % p) 0 1) fun i => if i * a % p = 1 % p then i else a ^ (p - 2)

theorem inv_cast (p a : Nat) [Fact p.Prime] (ha : (a : ZMod p) ≠ 0) : ((inv p a : Nat) : ZMod p) = (a : ZMod p)⁻¹ := by
  unfold inv
  rw [force_eq]
  split
  · rename_i h
    have := (ZMod.natCast_eq_natCast_iff _ 1 p).mpr h
    rw [Nat.cast_mul, Nat.cast_one] at this
    exact eq_inv_of_mul_eq_one_left this
  · rw [Nat.cast_pow]
    have h1 := ZMod.pow_card_sub_one_eq_one ha
    have h2 := (Fact.out : p.Prime).two_le
    refine eq_inv_of_mul_eq_one_left ?_
    rw [← pow_succ, show p - 2 + 1 = p - 1 by omega, h1]

/-- Jacobian coordinates. -/
structure J where
  (x y z : Nat)
deriving DecidableEq

/-- Twice a point. -/
def dbl (p a b : Nat) : J → J
  | ⟨x, y, z⟩ =>
    force (y * y % p) fun yy =>
    force (4 * x * yy % p) fun s =>
    force (z * z % p) fun zz =>
    force ((3 * (x * x) + 2 * a * x * zz + b * (zz * zz)) % p) fun m =>
    force (2 * y * z % p) fun z3 =>
    force (subm p (m * m) (2 * s + a * (z3 * z3))) fun x3 =>
    force (subm p (m * subm p s x3) (8 * (yy * yy))) fun y3 => ⟨x3, y3, z3⟩

/-- The sum of two points. -/
def add (p a b : Nat) : J → J → J
  | ⟨x1, y1, z1⟩, ⟨x2, y2, z2⟩ =>
    if z1 % p = 0 then ⟨x2, y2, z2⟩
    else if z2 % p = 0 then ⟨x1, y1, z1⟩
    else
      force (z1 * z1 % p) fun zz1 =>
      force (z2 * z2 % p) fun zz2 =>
      force (x1 * zz2 % p) fun u1 =>
      force (y1 * (z2 * zz2) % p) fun s1 =>
      force (subm p (x2 * zz1) u1) fun h =>
      force (subm p (y2 * (z1 * zz1)) s1) fun r =>
      if h = 0 then
        if r = 0 then dbl p a b ⟨x1, y1, z1⟩ else ⟨1, 1, 0⟩
      else
        force (h * h % p) fun hh =>
        force (hh * h % p) fun hhh =>
        force (u1 * hh % p) fun v =>
        force (h * z1 % p * z2 % p) fun z3 =>
        force (subm p (r * r) (a * (z3 * z3) + hhh + 2 * v)) fun x3 =>
        force (subm p (r * subm p v x3) (s1 * hhh)) fun y3 => ⟨x3, y3, z3⟩

/-- The multiple `k P` for `k < 2 ^ f`. -/
def smul (p a b : Nat) (P : J) : Nat → Nat → J
  | 0, _ => ⟨1, 1, 0⟩
  | f + 1, k =>
    match smul p a b P f (k / 2) with
    | ⟨x, y, z⟩ =>
      match dbl p a b ⟨x, y, z⟩ with
      | ⟨x', y', z'⟩ => if k % 2 = 1 then add p a b ⟨x', y', z'⟩ P else ⟨x', y', z'⟩

/-- Affine coordinates; `none` is the point at infinity. -/
def affine (p : Nat) : J → Option (Nat × Nat)
  | ⟨x, y, z⟩ =>
    if z % p = 0 then none
    else force (inv p z) fun i => force (i * i % p) fun ii => some (x * ii % p, y * (ii * i % p) % p)

section
variable {p : Nat} [Fact p.Prime] {a b c : Nat}

/-- The curve over the prime field. -/
abbrev Curve (p : Nat) [Fact p.Prime] (a b c : Nat) : WeierstrassCurve.Affine (ZMod p) :=
  curve (a : ZMod p) (b : ZMod p) (c : ZMod p)

/-- `j` stands for the point. -/
def Rep (j : J) (P : (Curve p a b c).Point) : Prop := IsRep (j.x : ZMod p) (j.y : ZMod p) (j.z : ZMod p) P

theorem pos : 0 < p := (Fact.out : p.Prime).pos

theorem mod_zero (x : Nat) : x % p = 0 ↔ (x : ZMod p) = 0 := by
  rw [ZMod.natCast_eq_zero_iff, Nat.dvd_iff_mod_eq_zero]

theorem subm_zero (x y : Nat) : subm p x y = 0 ↔ ((x : ZMod p) - y) = 0 := by
  rw [← subm_cast p x y pos, ← mod_zero, subm, Nat.mod_mod]

theorem rep_zero (x y : Nat) : Rep ⟨x, y, 0⟩ (0 : (Curve p a b c).Point) := by
  show ((0 : Nat) : ZMod p) = 0
  exact Nat.cast_zero

theorem rep_z {j : J} {P : (Curve p a b c).Point} (h : Rep j P) (hz : j.z % p = 0) : P = 0 := by
  rw [mod_zero] at hz
  cases P with
  | zero => rfl
  | some x y hxy => exact absurd hz h.1

theorem rep_dbl (h2 : (2 : ZMod p) ≠ 0) {j : J} {P : (Curve p a b c).Point} (h : Rep j P) : Rep (dbl p a b j) (P + P) := by
  obtain ⟨x, y, z⟩ := j
  have := isRep_dbl h2 h
  simp only [dbl, force_eq, Rep] at this ⊢
  simp only [subm_cast p _ _ pos, ZMod.natCast_mod, Nat.cast_mul, Nat.cast_add, Nat.cast_ofNat]
  convert this using 1 <;> ring

theorem rep_add (h2 : (2 : ZMod p) ≠ 0) {i j : J} {P Q : (Curve p a b c).Point} (hi : Rep i P) (hj : Rep j Q) :
    Rep (add p a b i j) (P + Q) := by
  obtain ⟨x1, y1, z1⟩ := i
  obtain ⟨x2, y2, z2⟩ := j
  unfold add
  simp only [force_eq]
  by_cases hz1 : z1 % p = 0
  · rw [if_pos hz1]
    rw [mod_zero] at hz1
    cases P with
    | zero =>
      show Rep _ (0 + Q)
      rw [zero_add]
      exact hj
    | some x y h => exact absurd hz1 hi.1
  rw [if_neg hz1]
  by_cases hz2 : z2 % p = 0
  · rw [if_pos hz2]
    rw [mod_zero] at hz2
    cases Q with
    | zero =>
      show Rep _ (P + 0)
      rw [add_zero]
      exact hi
    | some x y h => exact absurd hz2 hj.1
  rw [if_neg hz2]
  rw [mod_zero] at hz1 hz2
  obtain ⟨a1, a2, a3⟩ := isRep_add hi hj hz1 hz2
  have eh : ((x2 * (z1 * z1 % p) : Nat) : ZMod p) - ((x1 * (z2 * z2 % p) % p : Nat) : ZMod p) =
      x2 * (z1 : ZMod p) ^ 2 - x1 * (z2 : ZMod p) ^ 2 := by
    simp only [ZMod.natCast_mod, Nat.cast_mul]; ring
  have er : ((y2 * (z1 * (z1 * z1 % p)) : Nat) : ZMod p) - ((y1 * (z2 * (z2 * z2 % p)) % p : Nat) : ZMod p) =
      y2 * (z1 : ZMod p) ^ 3 - y1 * (z2 : ZMod p) ^ 3 := by
    simp only [ZMod.natCast_mod, Nat.cast_mul]; ring
  by_cases hh : subm p (x2 * (z1 * z1 % p)) (x1 * (z2 * z2 % p) % p) = 0
  · rw [if_pos hh]
    rw [subm_zero, eh] at hh
    by_cases hr : subm p (y2 * (z1 * (z1 * z1 % p))) (y1 * (z2 * (z2 * z2 % p)) % p) = 0
    · rw [if_pos hr]
      rw [subm_zero, er] at hr
      rw [a2 hh hr]
      exact rep_dbl h2 hi
    · rw [if_neg hr]
      rw [subm_zero, er] at hr
      rw [a3 hh hr]
      exact rep_zero 1 1
  · rw [if_neg hh]
    rw [subm_zero, eh] at hh
    have := a1 hh
    simp only [Rep, subm_cast p _ _ pos, ZMod.natCast_mod, Nat.cast_mul, Nat.cast_add, Nat.cast_ofNat] at this ⊢
    convert this using 1 <;> ring

theorem rep_smul (h2 : (2 : ZMod p) ≠ 0) {j : J} {P : (Curve p a b c).Point} (h : Rep j P) (f k : Nat) (hk : k < 2 ^ f) :
    Rep (smul p a b j f k) (k • P) := by
  induction f generalizing k with
  | zero =>
    have : k = 0 := by simpa using hk
    subst this
    rw [zero_nsmul]
    exact rep_zero 1 1
  | succ f ih =>
    have ih := rep_dbl h2 (ih (k / 2) (by rw [pow_succ] at hk; omega))
    rw [← add_nsmul] at ih
    have hs : smul p a b j (f + 1) k = if k % 2 = 1 then add p a b (dbl p a b (smul p a b j f (k / 2))) j
        else dbl p a b (smul p a b j f (k / 2)) := rfl
    rw [hs]
    split
    · have e : k • P = (k / 2 + k / 2) • P + P := by
        rw [← succ_nsmul]
        congr 1
        omega
      rw [e]
      exact rep_add h2 ih h
    · have e : k • P = (k / 2 + k / 2) • P := by
        congr 1
        omega
      rw [e]
      exact ih

theorem affine_zero {j : J} (h : Rep j (0 : (Curve p a b c).Point)) : affine p j = none := by
  obtain ⟨x, y, z⟩ := j
  exact if_pos ((mod_zero z).mpr h)

theorem affine_some {j : J} {x y : ZMod p} {hxy : (Curve p a b c).Nonsingular x y} (h : Rep j (.some x y hxy)) :
    affine p j = some (x.val, y.val) := by
  obtain ⟨X, Y, Z⟩ := j
  obtain ⟨hz, hx, hy⟩ := h
  simp only at hz hx hy
  unfold affine
  simp only [force_eq]
  rw [if_neg (by rwa [mod_zero])]
  have : ∀ (n : Nat) (v : ZMod p), (n : ZMod p) = v → n % p = v.val := by
    intro n v h
    rw [← h, ZMod.val_natCast]
  refine congrArg some (Prod.ext (this _ _ ?_) (this _ _ ?_))
  · rw [Nat.cast_mul, ZMod.natCast_mod, Nat.cast_mul, inv_cast p Z hz, hx]
    field_simp
  · rw [Nat.cast_mul, ZMod.natCast_mod, Nat.cast_mul, ZMod.natCast_mod, Nat.cast_mul, inv_cast p Z hz, hy]
    field_simp

end
end KC.Real.Ec
