import Mathlib.NumberTheory.LucasPrimality
import Mathlib.Data.Nat.Prime.Basic
import Mathlib.Algebra.BigOperators.Associated
import Mathlib.Tactic.NormNum.Prime
import Mathlib.Tactic.IntervalCases
import Verif.Real.Sha2
/-
Powers modulo a number, and primality certificates (Pratt) checked by the kernel.
-/
namespace KC.Real

/-- `a ^ e % m` for `e < 2 ^ f`. -/
def powMod (m : Nat) : Nat → Nat → Nat → Nat
  | 0, _, _ => 1 % m
  | f + 1, a, e =>
    if e = 0 then 1 % m
    else force (powMod m f a (e / 2)) fun h => if e % 2 = 1 then h * h % m * a % m else h * h % m

theorem powMod_eq (m f a e : Nat) (h : e < 2 ^ f) : powMod m f a e = a ^ e % m := by
  induction f generalizing e with
  | zero =>
    have : e = 0 := by simpa using h
    subst this
    rfl
  | succ f ih =>
    unfold powMod
    by_cases he : e = 0
    · rw [if_pos he, he, pow_zero]
    rw [if_neg he, force_eq, ih (e / 2) (by rw [pow_succ] at h; omega)]
    have hs : a ^ (e / 2) % m * (a ^ (e / 2) % m) % m = a ^ (2 * (e / 2)) % m := by
      rw [← Nat.mul_mod, two_mul, pow_add]
    rw [hs]
    split
    · rw [Nat.mod_mul_mod, ← pow_succ]
      congr 2
      omega
    · congr 2
      omega

/-- Pratt's certificate: the prime factors of `n - 1` and an element of that order. -/
theorem pratt (n a : Nat) (fs : List Nat) (hn : 1 < n) (hn' : n < 2 ^ 260) (hp : ∀ q ∈ fs, q.Prime) (hprod : fs.prod = n - 1)
    (h1 : powMod n 260 a (n - 1) = 1) (h2 : ∀ q ∈ fs, powMod n 260 a ((n - 1) / q) ≠ 1) : n.Prime := by
  have key : ∀ e, e < 2 ^ 260 → (powMod n 260 a e = 1 ↔ (a : ZMod n) ^ e = 1) := by
    intro e he
    have := ZMod.natCast_eq_natCast_iff (a ^ e) 1 n
    rw [Nat.cast_pow, Nat.cast_one, Nat.ModEq, Nat.mod_eq_of_lt hn] at this
    rw [powMod_eq _ _ _ _ he, this]
  refine lucas_primality n (a : ZMod n) ((key _ (by omega)).mp h1) fun q hq hd => ?_
  rw [← hprod] at hd
  obtain ⟨x, hx, hdx⟩ := (Prime.dvd_prod_iff hq.prime).mp hd
  obtain rfl := (Nat.prime_dvd_prime_iff_eq hq (hp x hx)).mp hdx
  intro h
  refine h2 q hx ((key _ ?_).mpr h)
  have := Nat.div_le_self (n - 1) q
  omega

end KC.Real
