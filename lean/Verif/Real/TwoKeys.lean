import Mathlib.Combinatorics.Additive.CauchyDavenport
import Mathlib.Algebra.Order.BigOperators.Group.Finset
import Mathlib.Data.Fintype.Prod
import Mathlib.FieldTheory.Finite.Basic
import Mathlib.Tactic.LinearCombination
import Verif.Real.Poly1305
/-
Poly1305 under two secret points: sixteen blocks suffice to give the two values anything one wants (by the theorem of Cauchy and Davenport).
-/
namespace KC.Real.Chacha.Two
open Finset Pointwise

/-! ### One point -/

/-- All sums of multiples, below `M`, of the elements of a list. -/
def sums {G : Type} [AddCommGroup G] [DecidableEq G] (M : Nat) : List G → Finset G
  | [] => {0}
  | u :: us => (range M).image (fun m => m • u) + sums M us

theorem mem_sums {G : Type} [AddCommGroup G] [DecidableEq G] {M : Nat} {us : List G} {x : G} (h : x ∈ sums M us) :
    ∃ ms : List Nat, ms.length = us.length ∧ (∀ m ∈ ms, m < M) ∧ (List.zipWith (fun (m : Nat) u => m • u) ms us).sum = x := by
  induction us generalizing x with
  | nil => exact ⟨[], rfl, by simp, by simpa [sums, eq_comm] using h⟩
  | cons u us ih =>
    rw [sums, mem_add] at h
    obtain ⟨a, ha, b, hb, rfl⟩ := h
    obtain ⟨m, hm, rfl⟩ := mem_image.mp ha
    obtain ⟨ms, h1, h2, h3⟩ := ih hb
    refine ⟨m :: ms, by simp [h1], ?_, by simp [h3]⟩
    intro k hk
    rcases List.mem_cons.mp hk with rfl | hk
    · exact mem_range.mp hm
    · exact h2 k hk

theorem seg_nonempty {G : Type} [AddCommGroup G] [DecidableEq G] {M : Nat} (hM : 0 < M) (u : G) :
    ((range M).image fun m : Nat => m • u).Nonempty := ⟨0, mem_image.mpr ⟨0, mem_range.mpr hM, by simp⟩⟩

theorem sums_nonempty {G : Type} [AddCommGroup G] [DecidableEq G] {M : Nat} (hM : 0 < M) (us : List G) : (sums M us).Nonempty := by
  induction us with
  | nil => exact ⟨0, by simp [sums]⟩
  | cons u us ih =>
    rw [sums]
    exact Nonempty.add (seg_nonempty hM u) ih

theorem sums_append {G : Type} [AddCommGroup G] [DecidableEq G] {M : Nat} (us vs : List G) :
    sums M (us ++ vs) = sums M us + sums M vs := by
  induction us with
  | nil => rw [List.nil_append, sums, singleton_zero, zero_add]
  | cons u us ih => rw [List.cons_append, sums, ih, sums, add_assoc]

theorem sums_map {G G' : Type} [AddCommGroup G] [DecidableEq G] [AddCommGroup G'] [DecidableEq G'] {M : Nat} (f : G →+ G') (us : List G) :
    ∀ x, x ∈ sums M (us.map f) → ∃ y ∈ sums M us, f y = x := by
  induction us with
  | nil =>
    intro x hx
    exact ⟨0, by simp [sums], by simpa [sums, eq_comm] using hx⟩
  | cons u us ih =>
    intro x hx
    rw [List.map_cons, sums, mem_add] at hx
    obtain ⟨a, ha, b, hb, rfl⟩ := hx
    obtain ⟨m, hm, rfl⟩ := mem_image.mp ha
    obtain ⟨y, hy, rfl⟩ := ih b hb
    refine ⟨m • u + y, ?_, by simp⟩
    rw [sums]
    exact add_mem_add (mem_image.mpr ⟨m, hm, rfl⟩) hy

variable {p : Nat} [Fact p.Prime] {M : Nat}

theorem cast_lt {a b : Nat} (ha : a < p) (hb : b < p) (h : (a : ZMod p) = b) : a = b :=
  Nat.ModEq.eq_of_lt_of_lt ((ZMod.natCast_eq_natCast_iff _ _ _).mp h) ha hb

theorem card_seg (hp : M < p) {u : ZMod p} (hu : u ≠ 0) : ((range M).image (fun m : Nat => m • u)).card = M := by
  rw [card_image_of_injOn, card_range]
  intro a ha b hb h
  have ha : a < M := by simpa using ha
  have hb : b < M := by simpa using hb
  simp only [nsmul_eq_mul] at h
  exact cast_lt (ha.trans hp) (hb.trans hp) (mul_right_cancel₀ hu h)

theorem card_sums (hM : 0 < M) (hp : M < p) (us : List (ZMod p)) (h : ∀ u ∈ us, u ≠ 0) :
    min p (us.length * (M - 1) + 1) ≤ (sums M us).card := by
  induction us with
  | nil => simp [sums]
  | cons u us ih =>
    have h1 := ih fun v hv => h v (by simp [hv])
    have h2 := ZMod.cauchy_davenport (p := p) Fact.out (seg_nonempty hM u) (sums_nonempty hM us)
    rw [card_seg hp (h u (by simp))] at h2
    rw [sums, List.length_cons, Nat.succ_mul]
    omega

/-- Five blocks give one point every value. -/
theorem sums_all (hM : 0 < M) (hp : M < p) (h5 : p ≤ 5 * (M - 1) + 1) (us : List (ZMod p)) (h : ∀ u ∈ us, u ≠ 0) (hl : 5 ≤ us.length)
    (x : ZMod p) : x ∈ sums M us := by
  have h1 := card_sums hM hp us h
  have h2 : p ≤ us.length * (M - 1) + 1 := by
    have : 5 * (M - 1) ≤ us.length * (M - 1) := Nat.mul_le_mul_right _ hl
    omega
  rw [min_eq_left h2] at h1
  have h3 : (sums M us).card = Fintype.card (ZMod p) :=
    le_antisymm (card_le_univ _) (by rw [ZMod.card]; exact h1)
  rw [(card_eq_iff_eq_univ _).mp h3]
  exact mem_univ x

/-! ### Two points -/

/-- Zero exactly on the line through `u`. -/
def across (u : ZMod p × ZMod p) : ZMod p × ZMod p →+ ZMod p where
  toFun x := u.2 * x.1 - u.1 * x.2
  map_zero' := by simp
  map_add' x y := by simp only [Prod.fst_add, Prod.snd_add]; ring

theorem across_apply (u x : ZMod p × ZMod p) : across u x = u.2 * x.1 - u.1 * x.2 := rfl

theorem across_smul (u : ZMod p × ZMod p) (t : ZMod p) (x : ZMod p × ZMod p) : across u (x + (t * u.1, t * u.2)) = across u x := by
  simp only [across_apply, Prod.fst_add, Prod.snd_add]
  ring

theorem across_line {u : ZMod p × ZMod p} (hu : u.1 ≠ 0) {x y : ZMod p × ZMod p} (h : across u x = across u y) :
    ∃ t, x = y + (t * u.1, t * u.2) := by
  simp only [across_apply] at h
  refine ⟨(x.1 - y.1) / u.1, Prod.ext ?_ ?_⟩
  · simp only [Prod.fst_add]
    field_simp
    ring
  · simp only [Prod.snd_add]
    field_simp
    linear_combination -h

/-- What is missing after one more block, on one line. -/
theorem line_step (hM : 0 < M) (hp : M < p) {u : ZMod p × ZMod p} (hu : u.1 ≠ 0) (S : Finset (ZMod p × ZMod p)) (c : ZMod p)
    (h : ∃ s ∈ S, across u s = c) :
    (univ.filter fun x => across u x = c ∧ x ∉ (range M).image (fun m : Nat => m • u) + S).card ≤
      (univ.filter fun x => across u x = c ∧ x ∉ S).card - (M - 1) ∧ (univ.filter fun x => across u x = c ∧ x ∉ S).card ≤ p := by
  classical
  obtain ⟨s0, hs0, hc⟩ := h
  obtain ⟨τ, hτd⟩ : ∃ τ : ZMod p → ZMod p × ZMod p, ∀ t, τ t = s0 + (t * u.1, t * u.2) := ⟨_, fun _ => rfl⟩
  have hτ : Function.Injective τ := by
    intro a b e
    rw [hτd, hτd] at e
    have := congrArg Prod.fst (add_left_cancel e)
    exact mul_right_cancel₀ hu this
  have card_of : ∀ A : ZMod p × ZMod p → Prop, [DecidablePred A] →
      (univ.filter fun x => across u x = c ∧ ¬ A x).card = p - (univ.filter fun t => A (τ t)).card := by
    intro A _
    have e := card_filter_add_card_filter_not (s := (univ : Finset (ZMod p))) (fun t => A (τ t))
    rw [card_univ, ZMod.card] at e
    have : (univ.filter fun x => across u x = c ∧ ¬ A x).card = (univ.filter fun t => ¬ A (τ t)).card := by
      rw [← card_image_of_injective _ hτ]
      congr 1
      ext x
      simp only [mem_filter, mem_univ, true_and, mem_image]
      constructor
      · rintro ⟨h1, h2⟩
        obtain ⟨t, ht⟩ := across_line hu (h1.trans hc.symm)
        rw [← hτd] at ht
        exact ⟨t, by rw [← ht]; exact h2, ht.symm⟩
      · rintro ⟨t, h1, rfl⟩
        refine ⟨?_, h1⟩
        rw [hτd]
        exact (across_smul u t s0).trans hc
    omega
  rw [card_of, card_of]
  have hT : (univ.filter fun t => τ t ∈ S).Nonempty := by
    refine ⟨0, mem_filter.mpr ⟨mem_univ _, ?_⟩⟩
    rw [hτd]
    simpa only [zero_mul, Prod.mk_zero_zero, add_zero] using hs0
  have cd := ZMod.cauchy_davenport (p := p) Fact.out (seg_nonempty hM (1 : ZMod p)) hT
  rw [card_seg hp one_ne_zero] at cd
  have sub : (range M).image (fun m : Nat => m • (1 : ZMod p)) + (univ.filter fun t => τ t ∈ S) ⊆
      (univ.filter fun t => τ t ∈ (range M).image (fun m : Nat => m • u) + S) := by
    intro x hx
    obtain ⟨a, ha, b, hb, rfl⟩ := mem_add.mp hx
    obtain ⟨m, hm, rfl⟩ := mem_image.mp ha
    have hb : τ b ∈ S := (mem_filter.mp hb).2
    refine mem_filter.mpr ⟨mem_univ _, ?_⟩
    have : τ (m • (1 : ZMod p) + b) = m • u + τ b := by
      rw [hτd, hτd]
      refine Prod.ext ?_ ?_
      · simp only [Prod.fst_add, Prod.smul_fst]
        simp only [nsmul_eq_mul]
        ring
      · simp only [Prod.snd_add, Prod.smul_snd]
        simp only [nsmul_eq_mul]
        ring
    rw [this]
    exact add_mem_add (mem_image.mpr ⟨m, hm, rfl⟩) hb
  have hle := card_le_card sub
  omega

/-- What is missing after one more block: at most about three quarters of what was. -/
theorem step (hM : 0 < M) (hp : M < p) (h5 : p ≤ 5 * (M - 1) + 1) {u : ZMod p × ZMod p} (hu : u.1 ≠ 0) (us : List (ZMod p × ZMod p))
    (hl : 5 ≤ us.length) (h : ∀ v ∈ us, across u v ≠ 0) :
    (univ \ sums M (u :: us)).card * p ≤ (univ \ sums M us).card * (p - (M - 1)) := by
  have fibers : ∀ S : Finset (ZMod p × ZMod p),
      (univ \ S).card = ∑ c : ZMod p, (univ.filter fun x => across u x = c ∧ x ∉ S).card := by
    intro S
    rw [card_eq_sum_card_fiberwise (f := across u) (t := univ) (fun x _ => mem_coe.mpr (mem_univ _))]
    refine sum_congr rfl fun c _ => congrArg card ?_
    ext x
    simp [and_comm]
  rw [fibers, fibers, sum_mul, sum_mul]
  refine sum_le_sum fun c _ => ?_
  have hits : ∃ s ∈ sums M us, across u s = c := by
    refine sums_map (across u) us c (sums_all hM hp h5 _ ?_ (by simpa using hl) c)
    intro w hw
    obtain ⟨v, hv, rfl⟩ := List.mem_map.mp hw
    exact h v hv
  obtain ⟨h1, h2⟩ := line_step hM hp hu (sums M us) c hits
  rw [sums]
  generalize (univ.filter fun x => across u x = c ∧ x ∉ (range M).image (fun m : Nat => m • u) + sums M us).card = a at h1 ⊢
  generalize (univ.filter fun x => across u x = c ∧ x ∉ sums M us).card = b at h1 h2 ⊢
  obtain ⟨k, hk⟩ : ∃ k, k = M - 1 := ⟨_, rfl⟩
  rw [← hk] at h1 ⊢
  have hkP : k ≤ p := by omega
  clear hits fibers
  obtain ⟨q, hq⟩ := Nat.exists_eq_add_of_le hkP
  rw [hq, Nat.add_sub_cancel_left]
  rw [hq] at h2
  rcases Nat.le_total b k with hb | hb
  · rw [show a = 0 by omega]
    simp
  · obtain ⟨d, rfl⟩ := Nat.exists_eq_add_of_le hb
    have ha : a ≤ d := by omega
    have hd : d ≤ q := by omega
    calc a * (k + q) ≤ d * (k + q) := Nat.mul_le_mul_right _ ha
      _ = d * q + d * k := by ring
      _ ≤ d * q + q * k := Nat.add_le_add_left (Nat.mul_le_mul_right _ hd) _
      _ = (k + d) * q := by ring

/-- Eight blocks in different directions give more than half of all pairs of values. -/
theorem half (hM : 0 < M) (hp : M < p) (h5 : p ≤ 5 * (M - 1) + 1) (hq : 2 * (p - (M - 1)) ^ 3 < p ^ 3) (us : List (ZMod p × ZMod p))
    (hl : us.length = 8) (h : us.Pairwise fun u v => across u v ≠ 0) (h1 : ∀ u ∈ us, u.1 ≠ 0) : p * p < 2 * (sums M us).card := by
  match us, hl with
  | [a, b, c, d, e, f, g, i], _ =>
    rw [List.pairwise_cons, List.pairwise_cons, List.pairwise_cons] at h
    have s1 := step hM hp h5 (h1 c (by simp)) [d, e, f, g, i] (by simp) h.2.2.1
    have s2 := step hM hp h5 (h1 b (by simp)) [c, d, e, f, g, i] (by simp) h.2.1
    have s3 := step hM hp h5 (h1 a (by simp)) [b, c, d, e, f, g, i] (by simp) h.1
    have s0 : (univ \ sums M [d, e, f, g, i]).card ≤ p * p := by
      refine (card_le_univ _).trans ?_
      rw [Fintype.card_prod, ZMod.card]
    have s4 : (univ \ sums M [a, b, c, d, e, f, g, i]).card + (sums M [a, b, c, d, e, f, g, i]).card = p * p := by
      rw [card_sdiff_add_card_eq_card (subset_univ _), card_univ, Fintype.card_prod, ZMod.card]
    generalize (univ \ sums M [d, e, f, g, i]).card = n0 at *
    generalize (univ \ sums M [c, d, e, f, g, i]).card = n1 at *
    generalize (univ \ sums M [b, c, d, e, f, g, i]).card = n2 at *
    generalize (univ \ sums M [a, b, c, d, e, f, g, i]).card = n3 at *
    generalize (sums M [a, b, c, d, e, f, g, i]).card = n at *
    have hP : 0 < p := by omega
    generalize p - (M - 1) = q at *
    have t : n3 * p ^ 3 ≤ p * p * q ^ 3 := by
      calc n3 * p ^ 3 = n3 * p * p ^ 2 := by ring
        _ ≤ n2 * q * p ^ 2 := Nat.mul_le_mul_right _ s3
        _ = n2 * p * (q * p) := by ring
        _ ≤ n1 * q * (q * p) := Nat.mul_le_mul_right _ s2
        _ = n1 * p * q ^ 2 := by ring
        _ ≤ n0 * q * q ^ 2 := Nat.mul_le_mul_right _ s1
        _ = n0 * q ^ 3 := by ring
        _ ≤ p * p * q ^ 3 := Nat.mul_le_mul_right _ s0
    have : 2 * n3 < p * p := by
      by_contra hc
      have hc : p * p ≤ 2 * n3 := by omega
      have h5 : p * p * p ^ 3 ≤ p * p * (2 * q ^ 3) := by
        calc p * p * p ^ 3 ≤ 2 * n3 * p ^ 3 := Nat.mul_le_mul_right _ hc
          _ = 2 * (n3 * p ^ 3) := by ring
          _ ≤ 2 * (p * p * q ^ 3) := Nat.mul_le_mul_left _ t
          _ = p * p * (2 * q ^ 3) := by ring
      have := Nat.le_of_mul_le_mul_left h5 (Nat.mul_pos hP hP)
      omega
    omega

/-- Sixteen give all. -/
theorem both (hM : 0 < M) (hp : M < p) (h5 : p ≤ 5 * (M - 1) + 1) (hq : 2 * (p - (M - 1)) ^ 3 < p ^ 3) (us vs : List (ZMod p × ZMod p))
    (hl : us.length = 8) (hl' : vs.length = 8) (h : us.Pairwise fun u v => across u v ≠ 0) (h' : vs.Pairwise fun u v => across u v ≠ 0)
    (h1 : ∀ u ∈ us, u.1 ≠ 0) (h1' : ∀ u ∈ vs, u.1 ≠ 0) (t : ZMod p × ZMod p) : t ∈ sums M (us ++ vs) := by
  have a := half hM hp h5 hq us hl h h1
  have b := half hM hp h5 hq vs hl' h' h1'
  have hn : ¬ Disjoint ((sums M us).image fun x => t - x) (sums M vs) := by
    intro hd
    have := card_le_univ (((sums M us).image fun x => t - x) ∪ sums M vs)
    rw [card_union_of_disjoint hd, card_image_of_injective _ sub_right_injective, Fintype.card_prod, ZMod.card] at this
    omega
  rw [not_disjoint_iff] at hn
  obtain ⟨y, hy, hy'⟩ := hn
  obtain ⟨x, hx, rfl⟩ := mem_image.mp hy
  rw [sums_append, mem_add]
  exact ⟨x, hx, _, hy', by abel⟩

/-! ### The directions -/

/-- The blocks of a message act on two points in different directions. -/
theorem directions {r r' : ZMod p} (h0 : r ≠ 0) (h0' : r' ≠ 0) (hne : r ≠ r') (hne' : r ≠ -r') {b : Nat}
    (hb : ∀ k < b, Nat.gcd (k + 1) (p - 1) = 1 ∨ Nat.gcd (k + 1) (p - 1) = 2) {i j : Nat} (hij : i < j) (hj : j ≤ i + b) :
    across (r ^ i, r' ^ i) (r ^ j, r' ^ j) ≠ 0 := by
  obtain ⟨k, rfl⟩ := Nat.exists_eq_add_of_lt hij
  intro e
  rw [across_apply] at e
  have e1 : (r / r') ^ (k + 1) = 1 := by
    rw [div_pow, div_eq_one_iff_eq (pow_ne_zero _ h0')]
    have : (r ^ i * r' ^ i) * (r ^ (k + 1) - r' ^ (k + 1)) = 0 := by
      rw [← e]
      ring
    rcases mul_eq_zero.mp this with h | h
    · exact absurd h (mul_ne_zero (pow_ne_zero _ h0) (pow_ne_zero _ h0'))
    · exact sub_eq_zero.mp h
  have e2 : (r / r') ^ (p - 1) = 1 := ZMod.pow_card_sub_one_eq_one (div_ne_zero h0 h0')
  have e3 : (r / r') ^ (Nat.gcd (k + 1) (p - 1)) = 1 := pow_gcd_eq_one.mpr ⟨e1, e2⟩
  have e4 : (r / r') ^ 2 = 1 := by
    rcases hb k (by omega) with hg | hg <;> rw [hg] at e3
    · rw [pow_one] at e3
      rw [e3, one_pow]
    · exact e3
  rcases mul_self_eq_one_iff.mp ((pow_two _).symm.trans e4) with h | h
  · exact hne ((div_eq_one_iff_eq h0').mp h)
  · exact hne' (by rw [div_eq_iff h0'] at h; rw [h]; ring)

/-- The same with the larger exponent first. -/
theorem directions_down {r r' : ZMod p} (h0 : r ≠ 0) (h0' : r' ≠ 0) (hne : r ≠ r') (hne' : r ≠ -r') {b : Nat}
    (hb : ∀ k < b, Nat.gcd (k + 1) (p - 1) = 1 ∨ Nat.gcd (k + 1) (p - 1) = 2) {i j : Nat} (hij : i < j) (hj : j ≤ i + b) :
    across (r ^ j, r' ^ j) (r ^ i, r' ^ i) ≠ 0 := by
  have h := directions h0 h0' hne hne' hb hij hj
  intro e
  apply h
  rw [across_apply] at e ⊢
  linear_combination -e

/-- Numbers below `M` with which sixteen powers of two points have any two sums. -/
theorem reach (hM : 0 < M) (hp : M < p) (h5 : p ≤ 5 * (M - 1) + 1) (hq : 2 * (p - (M - 1)) ^ 3 < p ^ 3)
    (hb : ∀ k < 22, Nat.gcd (k + 1) (p - 1) = 1 ∨ Nat.gcd (k + 1) (p - 1) = 2) {r r' : ZMod p} (h0 : r ≠ 0) (h0' : r' ≠ 0) (hne : r ≠ r')
    (hne' : r ≠ -r') (x x' : ZMod p) :
    ∃ ms : List Nat, ms.length = 16 ∧ (∀ m ∈ ms, m < M) ∧
      (List.zipWith (fun (m e : Nat) => (m : ZMod p) * r ^ e) ms [17, 16, 15, 14, 13, 12, 11, 10, 9, 8, 7, 6, 5, 4, 3, 2]).sum = x ∧
      (List.zipWith (fun (m e : Nat) => (m : ZMod p) * r' ^ e) ms [17, 16, 15, 14, 13, 12, 11, 10, 9, 8, 7, 6, 5, 4, 3, 2]).sum = x' := by
  have hpair : ∀ es : List Nat, es.Pairwise (fun i j => j < i ∧ i ≤ j + 22) →
      (es.map fun e => (r ^ e, r' ^ e)).Pairwise fun u v => across u v ≠ 0 := by
    intro es hes
    rw [List.pairwise_map]
    exact hes.imp fun h => directions_down h0 h0' hne hne' hb h.1 h.2
  have hnz : ∀ es : List Nat, ∀ u ∈ es.map fun e => (r ^ e, r' ^ e), u.1 ≠ 0 := by
    intro es u hu
    obtain ⟨e, -, rfl⟩ := List.mem_map.mp hu
    exact pow_ne_zero _ h0
  have h := both hM hp h5 hq ([17, 16, 15, 14, 13, 12, 11, 10].map fun e => (r ^ e, r' ^ e))
    ([9, 8, 7, 6, 5, 4, 3, 2].map fun e => (r ^ e, r' ^ e)) rfl rfl (hpair _ (by decide)) (hpair _ (by decide)) (hnz _) (hnz _) (x, x')
  rw [← List.map_append] at h
  obtain ⟨ms, h1, h2, h3⟩ := mem_sums h
  refine ⟨ms, by simpa using h1, h2, ?_⟩
  have key : ∀ (es : List Nat) (ms : List Nat), (List.zipWith (fun (m : Nat) (u : ZMod p × ZMod p) => m • u) ms (es.map fun e => (r ^ e, r' ^ e))).sum =
      ((List.zipWith (fun (m e : Nat) => (m : ZMod p) * r ^ e) ms es).sum, (List.zipWith (fun (m e : Nat) => (m : ZMod p) * r' ^ e) ms es).sum) := by
    intro es
    induction es with
    | nil => intro ms; cases ms <;> rfl
    | cons e es ih =>
      intro ms
      cases ms with
      | nil => rfl
      | cons m ms =>
        simp only [List.map_cons, List.zipWith_cons_cons, List.sum_cons, ih]
        refine Prod.ext ?_ ?_
        · simp only [Prod.fst_add, Prod.smul_fst]
          simp only [nsmul_eq_mul]
        · simp only [Prod.snd_add, Prod.smul_snd]
          simp only [nsmul_eq_mul]
  rw [key] at h3
  exact ⟨congrArg Prod.fst h3, congrArg Prod.snd h3⟩

/-- The same for one point. -/
theorem reach_one (hM : 0 < M) (hp : M < p) (h5 : p ≤ 5 * (M - 1) + 1) {r : ZMod p} (h0 : r ≠ 0) (x : ZMod p) :
    ∃ ms : List Nat, ms.length = 16 ∧ (∀ m ∈ ms, m < M) ∧
      (List.zipWith (fun (m e : Nat) => (m : ZMod p) * r ^ e) ms [17, 16, 15, 14, 13, 12, 11, 10, 9, 8, 7, 6, 5, 4, 3, 2]).sum = x := by
  have h := sums_all hM hp h5 ([17, 16, 15, 14, 13, 12, 11, 10, 9, 8, 7, 6, 5, 4, 3, 2].map fun e => r ^ e) (by
    intro u hu
    obtain ⟨e, -, rfl⟩ := List.mem_map.mp hu
    exact pow_ne_zero _ h0) (by simp) x
  obtain ⟨ms, h1, h2, h3⟩ := mem_sums h
  refine ⟨ms, by simpa using h1, h2, ?_⟩
  rw [List.zipWith_map_right] at h3
  simpa only [nsmul_eq_mul] using h3

end KC.Real.Chacha.Two

namespace KC.Real.Chacha

/-- The block with a given number. -/
def blk (m : Nat) : Bytes := (Bytes.beBytes 16 m).reverse

theorem blk_length (m : Nat) : (blk m).length = 16 := by rw [blk, List.length_reverse, Bytes.beBytes_length]

theorem le_blk {m : Nat} (h : m < 2 ^ 128) : le (blk m) = m := by
  rw [blk, le_eq, List.reverse_reverse, Bytes.be_beBytes]
  exact Nat.mod_eq_of_lt (by rw [show 256 ^ 16 = 2 ^ 128 by decide +kernel]; exact h)

theorem polyLoop_add (r n m : Nat) (b c : Bytes) (a : Nat) (h : b.length = 16 * n) :
    polyLoop r (n + m) (b ++ c) a = polyLoop r m c (polyLoop r n b a) := by
  induction n generalizing b a with
  | zero =>
    rw [List.eq_nil_of_length_eq_zero (by omega : b.length = 0), Nat.zero_add]
    rfl
  | succ n ih =>
    rw [Nat.succ_add, polyLoop, polyLoop, force_eq, force_eq, List.take_append_of_le_length (by omega), List.drop_append_of_le_length (by omega)]
    exact ih _ _ (by rw [List.length_drop]; omega)

/-- The value of blocks with given numbers. -/
def valueAt (r : ZMod P) : List Nat → ZMod P → ZMod P
  | [], a => a
  | m :: ms, a => valueAt r ms ((a + ((2 ^ 128 : Nat) + (m : ZMod P))) * r)

theorem polyLoop_blocks (r : Nat) (ms : List Nat) (h : ∀ m ∈ ms, m < 2 ^ 128) (a : Nat) :
    ((polyLoop r ms.length (ms.flatMap blk) a : Nat) : ZMod P) = valueAt r ms a := by
  induction ms generalizing a with
  | nil => rfl
  | cons m ms ih =>
    rw [List.length_cons, List.flatMap_cons, polyLoop, force_eq, List.take_left' (blk_length m), List.drop_left' (blk_length m),
      ih (fun k hk => h k (by simp [hk])), valueAt, le_append_one, blk_length, le_blk (h m (by simp)), show 2 ^ 130 - 5 = P from rfl,
      ZMod.natCast_mod, show 256 ^ 16 = 2 ^ 128 by decide +kernel, Nat.cast_mul, Nat.cast_add, Nat.cast_add]

/-- The exponents of `n` blocks. -/
def exps : Nat → List Nat
  | 0 => []
  | n + 1 => (n + 1) :: exps n

theorem valueAt_sub (r : ZMod P) (ms : List Nat) (a b : ZMod P) :
    valueAt r ms a - valueAt r (List.replicate ms.length 0) b =
      (a - b) * r ^ ms.length + (List.zipWith (fun (m e : Nat) => (m : ZMod P) * r ^ e) ms (exps ms.length)).sum := by
  induction ms generalizing a b with
  | nil => simp [valueAt, exps]
  | cons m ms ih =>
    rw [List.length_cons, List.replicate_succ, valueAt, valueAt, ih, exps, List.zipWith_cons_cons, List.sum_cons, Nat.cast_zero]
    ring

theorem zip_mul (r : ZMod P) (ms es : List Nat) :
    (List.zipWith (fun (m e : Nat) => (m : ZMod P) * r ^ e) ms es).sum * r =
      (List.zipWith (fun (m e : Nat) => (m : ZMod P) * r ^ e) ms (es.map (· + 1))).sum := by
  induction es generalizing ms with
  | nil => cases ms <;> simp
  | cons e es ih =>
    cases ms with
    | nil => simp
    | cons m ms =>
      simp only [List.map_cons, List.zipWith_cons_cons, List.sum_cons, ← ih]
      ring

/-- The value of a message that ends with sixteen blocks of given numbers and one more, depends on the numbers by sixteen powers. -/
theorem value_free (r n : Nat) (b l : Bytes) (hb : b.length = 16 * n) (hl : l.length = 16) :
    ∃ K : ZMod P, ∀ ms : List Nat, ms.length = 16 → (∀ m ∈ ms, m < 2 ^ 128) →
      ((polyLoop r (n + (16 + 1)) (b ++ (ms.flatMap blk ++ l)) 0 : Nat) : ZMod P) = K +
        (List.zipWith (fun (m e : Nat) => (m : ZMod P) * r ^ e) ms [17, 16, 15, 14, 13, 12, 11, 10, 9, 8, 7, 6, 5, 4, 3, 2]).sum := by
  refine ⟨(valueAt r (List.replicate 16 0) (polyLoop r n b 0 : Nat) + le (l ++ [1])) * r, fun ms h1 h2 => ?_⟩
  have hlen : (ms.flatMap blk).length = 16 * 16 := by
    rw [List.length_flatMap, List.map_congr_left (fun m _ => blk_length m)]
    simp [h1]
  rw [polyLoop_add _ _ _ _ _ _ hb, polyLoop_add _ _ _ _ _ _ hlen, polyLoop, force_eq, polyLoop, List.take_of_length_le hl.le,
    show 2 ^ 130 - 5 = P from rfl, ZMod.natCast_mod, Nat.cast_mul, Nat.cast_add]
  have e := polyLoop_blocks r ms h2 (polyLoop r n b 0)
  rw [h1] at e
  rw [e]
  have e2 := valueAt_sub r ms (polyLoop r n b 0 : Nat) (polyLoop r n b 0 : Nat)
  rw [h1, sub_self, zero_mul, zero_add] at e2
  rw [show [17, 16, 15, 14, 13, 12, 11, 10, 9, 8, 7, 6, 5, 4, 3, 2] = (exps 16).map (· + 1) from rfl, ← zip_mul, ← e2]
  ring

theorem rOf_lt' (k : Bytes) : rOf k < 2 ^ 124 := lt_of_le_of_lt Nat.and_le_right (by decide +kernel)

/-- Messages with any beginning have, under any two different points, sixteen blocks to go on with, such that the two values are the same
up to the given pads. -/
theorem two_values (r r' : Nat) (hr : r < 2 ^ 124) (hr' : r' < 2 ^ 124) (hne : r ≠ r') (s s' : Nat) (hs : s < 2 ^ 128) (hs' : s' < 2 ^ 128)
    (n : Nat) (b l : Bytes) (hb : b.length = 16 * n) (hl : l.length = 16) :
    ∃ c : Bytes, c.length = 256 ∧
      (polyLoop r (n + (16 + 1)) (b ++ (c ++ l)) 0 + s) % 2 ^ 128 = (polyLoop r' (n + (16 + 1)) (b ++ (c ++ l)) 0 + s') % 2 ^ 128 := by
  have hM : 0 < 2 ^ 128 := by decide +kernel
  have hp : 2 ^ 128 < P := by decide +kernel
  have h5 : P ≤ 5 * (2 ^ 128 - 1) + 1 := by decide +kernel
  have hq : 2 * (P - (2 ^ 128 - 1)) ^ 3 < P ^ 3 := by decide +kernel
  have hg : ∀ k < 22, Nat.gcd (k + 1) (P - 1) = 1 ∨ Nat.gcd (k + 1) (P - 1) = 2 := by decide +kernel
  have hP : 2 * 2 ^ 124 < P := by decide +kernel
  have h0P : 0 < P := by decide +kernel
  have hlen : ∀ ms : List Nat, ms.length = 16 → (ms.flatMap blk).length = 256 := by
    intro ms h1
    rw [List.length_flatMap, List.map_congr_left (fun m _ => blk_length m)]
    simp [h1]
  have nz : ∀ r : Nat, r < 2 ^ 124 → r ≠ 0 → (r : ZMod P) ≠ 0 := by
    intro r h1 h2 e
    exact h2 (cast_inj (b := 0) (by omega) h0P (by simpa using e))
  -- one point zero
  have one : ∀ r s s' : Nat, r < 2 ^ 124 → r ≠ 0 → s < 2 ^ 128 → s' < 2 ^ 128 → ∃ c : Bytes, c.length = 256 ∧
      (polyLoop r (n + (16 + 1)) (b ++ (c ++ l)) 0 + s) % 2 ^ 128 = s' := by
    intro r s s' h1 h2 h3 h4
    obtain ⟨K, hK⟩ := value_free r n b l hb hl
    obtain ⟨ms, m1, m2, m3⟩ := Two.reach_one hM hp h5 (nz r h1 h2) (((s' + 2 ^ 128 - s) % 2 ^ 128 : Nat) - K)
    refine ⟨ms.flatMap blk, hlen ms m1, ?_⟩
    have := hK ms m1 m2
    rw [m3, add_sub_cancel] at this
    rw [cast_inj (polyLoop_lt _ _ _ _ h0P) ((Nat.mod_lt _ hM).trans hp) this]
    omega
  have zero : ∀ c, polyLoop 0 (n + (16 + 1)) c 0 = 0 := by
    generalize n + (16 + 1) = k
    induction k with
    | zero => intro c; rfl
    | succ k ih =>
      intro c
      rw [polyLoop, force_eq, Nat.mul_zero, Nat.zero_mod]
      exact ih _
  by_cases h0 : r = 0
  · subst h0
    obtain ⟨c, h1, h2⟩ := one r' s' s hr' (by omega) hs' hs
    refine ⟨c, h1, ?_⟩
    rw [h2, zero, Nat.zero_add, Nat.mod_eq_of_lt hs]
  by_cases h0' : r' = 0
  · subst h0'
    obtain ⟨c, h1, h2⟩ := one r s s' hr (by omega) hs hs'
    refine ⟨c, h1, ?_⟩
    rw [h2, zero, Nat.zero_add, Nat.mod_eq_of_lt hs']
  obtain ⟨K, hK⟩ := value_free r n b l hb hl
  obtain ⟨K', hK'⟩ := value_free r' n b l hb hl
  have e1 : (r : ZMod P) ≠ r' := fun e => hne (cast_inj (by omega) (by omega) e)
  have e2 : (r : ZMod P) ≠ -r' := by
    intro e
    have : ((r + r' : Nat) : ZMod P) = (0 : Nat) := by
      rw [Nat.cast_add, e]
      simp
    have := cast_inj (by omega) h0P this
    omega
  obtain ⟨ms, m1, m2, m3, m4⟩ := Two.reach hM hp h5 hq hg (nz r hr h0) (nz r' hr' h0') e1 e2 ((s' : ZMod P) - K) ((s : ZMod P) - K')
  refine ⟨ms.flatMap blk, hlen ms m1, ?_⟩
  have a1 := hK ms m1 m2
  have a2 := hK' ms m1 m2
  rw [m3, add_sub_cancel] at a1
  rw [m4, add_sub_cancel] at a2
  rw [cast_inj (polyLoop_lt _ _ _ _ h0P) (hs'.trans hp) a1, cast_inj (polyLoop_lt _ _ _ _ h0P) (hs.trans hp) a2, Nat.add_comm]

/-- The pad of a one-time key. -/
def sOf (key : Bytes) : Nat := le ((key.drop 16).take 16)

theorem sOf_lt (key : Bytes) : sOf key < 2 ^ 128 := by
  refine lt_of_lt_of_le (le_lt _) ?_
  rw [show 2 ^ 128 = 256 ^ 16 by decide +kernel]
  exact Nat.pow_le_pow_right (by decide) (by rw [List.length_take]; omega)

theorem sOf_take (k : Bytes) : sOf (k.take 32) = sOf k := by
  rw [sOf, sOf, List.drop_take, List.take_take]
  rfl

theorem le_tag (key nonce c : Bytes) : le (tag key nonce c) =
    (polyLoop (rOf (block key nonce 0)) (blocks (macData c)) (macData c) 0 + sOf (block key nonce 0)) % 2 ^ 128 := by
  rw [tag_eq, le_poly1305, rOf_take]
  rw [show le ((((block key nonce 0).take 32).drop 16).take 16) = sOf (block key nonce 0) from sOf_take _]

/-- Two keys with different points: every beginning goes on such that the tags are the same. -/
theorem two_tags (k k' nonce b : Bytes) (hb : b.length % 16 = 0) (h : rOf (block k nonce 0) ≠ rOf (block k' nonce 0)) :
    ∃ c : Bytes, c.length = 256 ∧ tag k nonce (b ++ c) = tag k' nonce (b ++ c) := by
  obtain ⟨c, hc, e⟩ := two_values _ _ (rOf_lt' _) (rOf_lt' _) h _ _ (sOf_lt (block k nonce 0)) (sOf_lt (block k' nonce 0)) (b.length / 16) b
    (List.replicate 8 0 ++ (Bytes.beBytes 8 (b.length + 256)).reverse) (by omega) (by simp [Bytes.beBytes_length])
  refine ⟨c, hc, le_inj (by rw [tag_len, tag_len]) ?_⟩
  have hm : macData (b ++ c) = b ++ (c ++ (List.replicate 8 0 ++ (Bytes.beBytes 8 (b.length + 256)).reverse)) := by
    have : (16 - (b ++ c).length % 16) % 16 = 0 := by rw [List.length_append, hc]; omega
    rw [macData, this, List.length_append, hc]
    simp
  have hn : blocks (macData (b ++ c)) = b.length / 16 + (16 + 1) := by
    rw [blocks_macData, List.length_append, hc]
    omega
  rw [le_tag, le_tag, hn, hm, e]

/-- Two keys with the same point have the same tags exactly if they have the same pad. -/
theorem same_tags (k k' nonce c : Bytes) (h : rOf (block k nonce 0) = rOf (block k' nonce 0)) :
    tag k nonce c = tag k' nonce c ↔ sOf (block k nonce 0) = sOf (block k' nonce 0) := by
  have h1 := sOf_lt (block k nonce 0)
  have h2 := sOf_lt (block k' nonce 0)
  constructor
  · intro e
    have := congrArg le e
    rw [le_tag, le_tag, h] at this
    omega
  · intro e
    exact le_inj (by rw [tag_len, tag_len]) (by rw [le_tag, le_tag, h, e])

end KC.Real.Chacha
