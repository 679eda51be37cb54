import Mathlib.Data.Fintype.BigOperators
import Mathlib.Algebra.BigOperators.Fin
import Mathlib.Data.Fin.Tuple.Basic
import Mathlib.Logic.Equiv.Fin.Basic
import Mathlib.Algebra.Order.BigOperators.Group.Finset
import Mathlib.Tactic.Ring
import Mathlib.Tactic.Linarith
import Verif.Spec.Birthday
import Verif.Props.Uniform
/-
Counting the outputs of the random source for which a caller meets a repetition.
-/
namespace KC.Proofs.Birthday
open KC KC.Manager KC.Props KC.Spec.Birthday KC.Spec.Crypt KC.Spec.Wallet KC.Crypt

/-- There are 256 bytes. -/
def byteEquiv : Fin 256 ≃ UInt8 := ⟨UInt8.ofFin, UInt8.toFin, fun x => by simp, fun x => by simp⟩

instance byteFintype : Fintype UInt8 := Fintype.ofEquiv _ byteEquiv

theorem card_byte : Fintype.card UInt8 = 256 := by rw [Fintype.ofEquiv_card]; exact Fintype.card_fin 256

open scoped Classical in
/-- How many byte strings of length `T` have a property. -/
noncomputable def cnt (T : Nat) (P : Bytes → Prop) : Nat := ∑ v : Fin T → UInt8, if P (List.ofFn v) then 1 else 0

theorem cnt_ncard (T : Nat) (P : Bytes → Prop) : {b : Bytes | b.length = T ∧ P b}.ncard = cnt T P := by
  classical
  have e : {b : Bytes | b.length = T ∧ P b} = List.ofFn '' {v : Fin T → UInt8 | P (List.ofFn v)} := by
    ext b
    constructor
    · rintro ⟨rfl, h⟩
      exact ⟨b.get, by simpa using h, by simp⟩
    · rintro ⟨v, hv, rfl⟩
      exact ⟨by simp, hv⟩
  rw [e, Set.ncard_image_of_injective _ List.ofFn_injective, Set.ncard_eq_toFinset_card', cnt, ← Finset.card_filter]
  congr 1
  ext v
  simp

theorem cnt_le (T : Nat) (P : Bytes → Prop) : cnt T P ≤ 256 ^ T := by
  classical
  calc cnt T P ≤ ∑ _v : Fin T → UInt8, 1 := Finset.sum_le_sum fun v _ => by split <;> simp
    _ = 256 ^ T := by
      rw [Finset.sum_const, Finset.card_univ, Fintype.card_fun, Fintype.card_fin, smul_eq_mul, mul_one, card_byte]

theorem cnt_zero {T : Nat} {P : Bytes → Prop} (h : ∀ b, b.length = T → ¬ P b) : cnt T P = 0 := by
  classical
  refine Finset.sum_eq_zero fun v _ => ?_
  rw [if_neg (h _ (by simp))]

theorem cnt_congr {T : Nat} {P Q : Bytes → Prop} (h : ∀ b, b.length = T → (P b ↔ Q b)) : cnt T P = cnt T Q := by
  classical
  refine Finset.sum_congr rfl fun v _ => ?_
  simp only [h (List.ofFn v) (by simp)]

theorem cnt_split (u T : Nat) (P : Bytes → Prop) :
    cnt (u + T) P = ∑ a : Fin u → UInt8, cnt T fun v => P (List.ofFn a ++ v) := by
  classical
  rw [cnt, ← (Fin.appendEquiv u T).sum_comp, Fintype.sum_prod_type]
  refine Finset.sum_congr rfl fun a _ => Finset.sum_congr rfl fun v _ => ?_
  have e : List.ofFn (Fin.appendEquiv u T (a, v)) = List.ofFn a ++ List.ofFn v := List.ofFn_fin_append a v
  simp only [e]

theorem run_pos {ε α : Type} (x : RM ε α) (r : Rng) : r.pos ≤ (x.run r).2.pos := by
  induction x generalizing r with
  | ret x => exact Nat.le_refl _
  | draw n k ih =>
    rw [RM.run, Rng.fill]
    by_cases h1 : r.poisoned
    · simp [h1]
    · by_cases h2 : r.fails r.calls
      · simp [h1, h2]
      · simp only [h1, h2, if_neg, Bool.false_eq_true, not_false_eq_true]
        exact Nat.le_trans (Nat.le_add_right r.pos n) (ih _ ⟨r.stream, r.fails, r.pos + n, r.calls + 1, false⟩)

theorem play_pos (E : Env) (S : Caller) (n : Nat) (h : List (Res Error Out)) (r : Rng) : r.pos ≤ (play E S n h r).2.pos := by
  induction n generalizing h r with
  | zero => exact Nat.le_refl _
  | succ n ih =>
    rw [play]
    split
    · exact Nat.le_refl _
    · exact Nat.le_trans (run_pos _ _) (ih _ _)

theorem play_marks {α : Type} (mark : Out → Option α) (E : Env) (S : Caller) (n : Nat) (h : List (Res Error Out)) (r : Rng) :
    (marks mark h).length ≤ (marks mark (play E S n h r).1).length := by
  induction n generalizing h r with
  | zero => exact Nat.le_refl _
  | succ n ih =>
    rw [play]
    split
    · exact Nat.le_refl _
    · refine Nat.le_trans ?_ (ih _ _)
      rw [marks, marks, List.filterMap_append, List.length_append]
      exact Nat.le_add_right _ _

theorem marks_push {α : Type} (mark : Out → Option α) (h : List (Res Error Out)) (x : Res Error Out) :
    marks mark (h ++ [x]) = marks mark h ++ (match x with | .ok o => (mark o).toList | _ => []) := by
  rw [marks, List.filterMap_append]
  congr 1
  cases x with
  | ok o => cases h : mark o <;> simp [h]
  | _ => simp

/-- The call ends without success and draws nothing, or it draws some bytes that make up the mark of its result. -/
def Fits {α : Type} (mark : Out → Option α) (w : Nat) (g : Bytes → α) (E : Env) (M : Manager) (c : Call) : Prop :=
  (∃ x, c.prog E M = .ret x ∧ ∀ o, x ≠ .ok o) ∨
  ∃ (u d : Nat) (f : Bytes → Out),
    (∀ r, Delivers r → (c.prog E M).run r = (.ok (f (seg r.stream r.pos u)), { r with pos := r.pos + u, calls := r.calls + d })) ∧
    ((∀ b, b.length = u → mark (f b) = none) ∨ u = w ∧ ∀ b, b.length = u → mark (f b) = some (g b))

theorem seg_mid (pre a v : Bytes) : seg (fun i => (pre ++ (a ++ v)).getD i 0) pre.length a.length = a := by
  apply List.ext_getElem
  · simp
  · intro i h1 h2
    simp only [seg, List.getElem_map, List.getElem_range, List.getD_eq_getElem?_getD]
    rw [List.getElem?_append_right (by omega), Nat.add_sub_cancel_left, List.getElem?_append_left h2, List.getElem?_eq_getElem h2]
    rfl

/-- From a point of a history on, `pre` having been drawn, the next bytes `v` lead to a repetition. -/
def Bad {α : Type} (mark : Out → Option α) (E : Env) (S : Caller) (k n T : Nat) (h : List (Res Error Out)) (pre : Bytes) (i : Nat)
    (v : Bytes) : Prop :=
  (play E S n h ⟨fun j => (pre ++ v).getD j 0, fun _ => false, pre.length, i, false⟩).2.pos ≤ pre.length + T ∧
    (marks mark (play E S n h ⟨fun j => (pre ++ v).getD j 0, fun _ => false, pre.length, i, false⟩).1).length ≤ k ∧
    ¬ (marks mark (play E S n h ⟨fun j => (pre ++ v).getD j 0, fun _ => false, pre.length, i, false⟩).1).Nodup

theorem few {α : Type} (g : Bytes → α) (w : Nat) (hg : ∀ a b : Bytes, a.length = w → b.length = w → g a = g b → a = b) (l : List α) 
    [DecidablePred fun a : Fin w → UInt8 => g (List.ofFn a) ∈ l] :
    (Finset.univ.filter fun a : Fin w → UInt8 => g (List.ofFn a) ∈ l).card ≤ l.length := by
  classical
  refine Nat.le_trans ?_ (List.toFinset_card_le l)
  refine Finset.card_le_card_of_injOn (fun a => g (List.ofFn a)) (fun a ha => ?_) (fun a _ b _ hab => ?_)
  · simpa using ha
  · exact List.ofFn_injective (hg _ _ (by simp) (by simp) hab)

theorem card_words (u : Nat) : (Finset.univ : Finset (Fin u → UInt8)).card = 256 ^ u := by
  rw [Finset.card_univ, Fintype.card_fun, Fintype.card_fin, card_byte]

theorem cnt_true (T : Nat) : cnt T (fun _ => True) = 256 ^ T := by
  rw [cnt]
  simp only [if_true, Finset.sum_const, smul_eq_mul, mul_one]
  exact card_words T

/-- The bound, from any point of a history on. -/
theorem bound {α : Type} (mark : Out → Option α) (w : Nat) (g : Bytes → α)
    (hg : ∀ a b : Bytes, a.length = w → b.length = w → g a = g b → a = b) (E : Env) (S : Caller)
    (hS : ∀ h M c, S h = some (M, c) → Fits mark w g E M c) (k : Nat) (n : Nat) :
    ∀ (T : Nat) (h : List (Res Error Out)) (pre : Bytes) (i : Nat), (marks mark h).Nodup → (marks mark h).length ≤ k →
      cnt T (Bad mark E S k n T h pre i) * (2 * 256 ^ w) + (marks mark h).length * ((marks mark h).length - 1) * 256 ^ T ≤
        k * (k - 1) * 256 ^ T := by
  classical
  have mono : ∀ {m : Nat}, m ≤ k → m * (m - 1) ≤ k * (k - 1) := fun hm => Nat.mul_le_mul hm (by omega)
  induction n with
  | zero =>
    intro T h pre i hn hk
    rw [cnt_zero (fun b _ hb => hb.2.2 hn), Nat.zero_mul, Nat.zero_add]
    exact Nat.mul_le_mul_right _ (mono hk)
  | succ n ih =>
    intro T h pre i hn hk
    rcases hs : S h with _ | ⟨M, c⟩
    · rw [cnt_zero (fun b _ hb => hb.2.2 (by simpa only [play, hs] using hn)), Nat.zero_mul, Nat.zero_add]
      exact Nat.mul_le_mul_right _ (mono hk)
    rcases hS h M c hs with ⟨x, hx, hno⟩ | ⟨u, d, f, hf, hm⟩
    · have e : marks mark (h ++ [x]) = marks mark h := by
        rw [marks_push]
        cases x with
        | ok o => exact absurd rfl (hno o)
        | _ => simp
      have := ih T (h ++ [x]) pre i (by rw [e]; exact hn) (by rw [e]; exact hk)
      rw [e] at this
      rwa [cnt_congr (Q := Bad mark E S k n T (h ++ [x]) pre i)]
      intro b _
      simp only [Bad, play, hs, hx, RM.run]
    by_cases hu : T < u
    · rw [cnt_zero, Nat.zero_mul, Nat.zero_add]
      · exact Nat.mul_le_mul_right _ (mono hk)
      · rintro b hb ⟨h1, -⟩
        simp only [play, hs] at h1
        rw [hf ⟨fun j => (pre ++ b).getD j 0, fun _ => false, pre.length, i, false⟩ ⟨rfl, rfl, rfl⟩] at h1
        have := play_pos E S n (h ++ [.ok (f (seg (fun j => (pre ++ b).getD j 0) pre.length u))])
          { stream := fun j => (pre ++ b).getD j 0, fails := fun _ => false, pos := pre.length + u, calls := i + d, poisoned := false }
        simp only at this h1
        omega
    obtain ⟨T', rfl⟩ : ∃ T', T = u + T' := ⟨T - u, by omega⟩
    -- what the rest is once the drawn bytes are known
    have part : ∀ (a : Fin u → UInt8) (v : Bytes),
        Bad mark E S k (n + 1) (u + T') h pre i (List.ofFn a ++ v) ↔
          Bad mark E S k n T' (h ++ [.ok (f (List.ofFn a))]) (pre ++ List.ofFn a) (i + d) v := by
      intro a v
      have e := seg_mid pre (List.ofFn a) v
      rw [List.length_ofFn] at e
      simp only [Bad, play, hs, hf ⟨fun j => (pre ++ (List.ofFn a ++ v)).getD j 0, fun _ => false, pre.length, i, false⟩ ⟨rfl, rfl, rfl⟩,
        e, List.append_assoc, List.length_append, List.length_ofFn, Nat.add_assoc]
    rw [cnt_split]
    simp only [part]
    have ih' := fun a : Fin u → UInt8 => ih T' (h ++ [.ok (f (List.ofFn a))]) (pre ++ List.ofFn a) (i + d)
    simp only [marks_push] at ih'
    have triv := fun a : Fin u → UInt8 => cnt_le T' (Bad mark E S k n T' (h ++ [.ok (f (List.ofFn a))]) (pre ++ List.ofFn a) (i + d))
    have none' : ∀ a : Fin u → UInt8, k < (marks mark (h ++ [.ok (f (List.ofFn a))])).length →
        cnt T' (Bad mark E S k n T' (h ++ [.ok (f (List.ofFn a))]) (pre ++ List.ofFn a) (i + d)) = 0 := fun a ha =>
      cnt_zero fun b _ hb => absurd (Nat.le_trans (play_marks mark E S n _ _) hb.2.1) (by omega)
    simp only [marks_push] at none'
    obtain ⟨F, hF⟩ : ∃ F : (Fin u → UInt8) → Nat, ∀ a,
      cnt T' (Bad mark E S k n T' (h ++ [.ok (f (List.ofFn a))]) (pre ++ List.ofFn a) (i + d)) = F a := ⟨_, fun _ => rfl⟩
    simp only [hF] at ih' triv none' ⊢
    rw [Nat.pow_add, Finset.sum_mul]
    rcases hm with hm | ⟨rfl, hm⟩
    · have each : ∀ a, F a * (2 * 256 ^ w) + (marks mark h).length * ((marks mark h).length - 1) * 256 ^ T' ≤ k * (k - 1) * 256 ^ T' := by
        intro a
        have := ih' a
        rw [hm _ (by simp), Option.toList_none, List.append_nil] at this
        exact this hn hk
      have := Finset.sum_le_sum fun a (_ : a ∈ Finset.univ) => each a
      rw [Finset.sum_add_distrib, Finset.sum_const, Finset.sum_const, card_words, smul_eq_mul, smul_eq_mul] at this
      calc _ = _ := by ring
        _ ≤ _ := this
        _ = _ := by ring
    · by_cases hk1 : k < (marks mark h).length + 1
      · rw [Finset.sum_eq_zero, Nat.zero_add]
        · exact Nat.mul_le_mul_right _ (mono hk)
        · intro a _
          rw [none' a, Nat.zero_mul]
          rw [hm _ (by simp)]
          simpa using hk1
      generalize hL : marks mark h = L at *
      generalize hmm : L.length = m at *
      have each : ∀ a, F a * (2 * 256 ^ u) + (m + 1) * m * 256 ^ T' ≤
          k * (k - 1) * 256 ^ T' + (if g (List.ofFn a) ∈ L then 1 else 0) * (2 * 256 ^ u * 256 ^ T') := by
        intro a
        by_cases ha : g (List.ofFn a) ∈ L
        · rw [if_pos ha, Nat.one_mul, Nat.add_comm]
          refine Nat.add_le_add (Nat.mul_le_mul_right _ (mono (by omega : m + 1 ≤ k))) ?_
          rw [Nat.mul_comm]
          exact Nat.mul_le_mul_left _ (triv a)
        · rw [if_neg ha, Nat.zero_mul, Nat.add_zero]
          have := ih' a
          rw [hm _ (by simp)] at this
          simp only [Option.toList_some, List.length_append, hmm, List.length_singleton, Nat.add_sub_cancel] at this
          exact this (List.nodup_append.mpr ⟨hn, by simp, by rintro x hx y hy rfl; simp only [List.mem_singleton] at hy; subst hy; exact ha hx⟩)
            (by omega)
      have := Finset.sum_le_sum fun a (_ : a ∈ Finset.univ) => each a
      rw [Finset.sum_add_distrib, Finset.sum_add_distrib, Finset.sum_const, Finset.sum_const, card_words, smul_eq_mul, smul_eq_mul,
        ← Finset.sum_mul, ← Finset.sum_mul, ← Finset.card_filter] at this
      have hA := few g u hg L
      rw [hmm] at hA
      have hA' := Nat.mul_le_mul_right (2 * 256 ^ u * 256 ^ T') hA
      have e1 : (m + 1) * m = m * (m - 1) + 2 * m := by
        cases m with
        | zero => rfl
        | succ m => simp only [Nat.add_sub_cancel]; ring
      rw [e1] at this
      have e2 : 256 ^ u * ((m * (m - 1) + 2 * m) * 256 ^ T') = m * (m - 1) * (256 ^ u * 256 ^ T') + m * (2 * 256 ^ u * 256 ^ T') := by ring
      have e3 : 256 ^ u * (k * (k - 1) * 256 ^ T') = k * (k - 1) * (256 ^ u * 256 ^ T') := by ring
      rw [e2, e3] at this
      rw [← Finset.sum_mul]
      omega
end KC.Proofs.Birthday
