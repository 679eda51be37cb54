import Verif.Model.Threads
import Verif.Proofs.Crypt
/-
Invariants of systems of threads sharing the random source.
-/
namespace KC
open KC.Spec.Crypt KC.Crypt

/-- The program `p`, having made exactly the draws `ds`, has become `q`. -/
inductive RM.Follows {ε α} (stream : Nat → UInt8) : RM ε α → List Draw → RM ε α → Prop
  | nil (p) : Follows stream p [] p
  | cons (n k d ds q) : d.len = n → Follows stream (k (seg stream d.pos n)) ds q → Follows stream (.draw n k) (d :: ds) q

theorem RM.follows_snoc {ε α} {stream : Nat → UInt8} {p q : RM ε α} {ds : List Draw} (h : RM.Follows stream p ds q)
    (n : Nat) (k : Bytes → RM ε α) (hq : q = .draw n k) (d : Draw) (hd : d.len = n) :
    RM.Follows stream p (ds ++ [d]) (k (seg stream d.pos n)) := by
  induction h with
  | nil p => subst hq; exact .cons _ _ _ _ _ hd (.nil _)
  | cons m k' e ds q he _ ih => exact .cons _ _ _ _ _ he (ih hq)

namespace Sys
variable {ε α : Type}

/-- Draws of one operation. -/
def drawsOf (log : List Draw) (t i : Nat) : List Draw := log.filter fun d => d.thread = t ∧ d.op = i

structure Inv (r0 : Rng) (progs : Nat → List (RM ε α)) (s : Sys ε α) : Prop where
  stream : s.rng.stream = r0.stream
  above : ∀ d ∈ s.log, r0.pos ≤ d.pos ∧ d.pos + d.len ≤ s.rng.pos
  posLe : r0.pos ≤ s.rng.pos
  disj : s.log.Pairwise fun d e => d.pos + d.len ≤ e.pos
  opLe : ∀ d ∈ s.log, d.op ≤ (s.threads d.thread).1
  prog : ∀ t, (s.threads t).2 = [] ∧ (progs t).length ≤ (s.threads t).1 ∨
    ∃ p, (progs t)[(s.threads t).1]? = some p ∧
      ∃ q, RM.Follows r0.stream p (drawsOf s.log t (s.threads t).1) q ∧
      (s.threads t).2 = q :: (progs t).drop ((s.threads t).1 + 1)
  fin : ∀ x ∈ s.done, x.2.1 < (s.threads x.1).1 ∧ ∃ p, (progs x.1)[x.2.1]? = some p ∧
    (x.2.2 = .panic ∨ RM.Follows r0.stream p (drawsOf s.log x.1 x.2.1) (.ret x.2.2))

theorem start_prog (progs : List (RM ε α)) (i : Nat) :
    progs.drop i = [] ∧ progs.length ≤ i ∨ ∃ p, progs[i]? = some p ∧ progs.drop i = p :: progs.drop (i + 1) := by
  rcases Nat.lt_or_ge i progs.length with h | h
  · exact .inr ⟨progs[i], by simp [h], by rw [List.drop_eq_getElem_cons h]⟩
  · exact .inl ⟨by simp [h], h⟩

theorem inv_start (r0 : Rng) (progs : Nat → List (RM ε α)) : Inv r0 progs (start r0 progs) where
  stream := rfl
  above := by simp [start]
  posLe := Nat.le_refl _
  disj := by simp [start]
  opLe := by simp [start]
  prog t := by
    rcases start_prog (progs t) 0 with h | ⟨p, h1, h2⟩
    · exact .inl h
    · exact .inr ⟨p, h1, p, .nil p, h2⟩
  fin := by simp [start]

theorem drawsOf_future {r0 : Rng} {progs : Nat → List (RM ε α)} {s : Sys ε α} (h : Inv r0 progs s) (t i : Nat)
    (hi : (s.threads t).1 < i) : drawsOf s.log t i = [] := by
  simp only [drawsOf, List.filter_eq_nil_iff]
  intro d hd hc
  simp only [decide_eq_true_eq] at hc
  have := h.opLe d hd
  rw [hc.1] at this
  omega

theorem setThread_same (f : Nat → Nat × List (RM ε α)) (t x) : setThread f t x t = x := if_pos rfl
theorem setThread_other (f : Nat → Nat × List (RM ε α)) {t u} (x) (h : u ≠ t) : setThread f t x u = f u := if_neg h

/-- Finishing the operation under way. -/
theorem inv_finish {r0 : Rng} {progs : Nat → List (RM ε α)} {s : Sys ε α} (h : Inv r0 progs s) (t i : Nat)
    (cur : RM ε α) (rest : List (RM ε α)) (ht : s.threads t = (i, cur :: rest)) (x : Res ε α)
    (hx : x = .panic ∨ cur = .ret x) (r' : Rng) (hr1 : r'.stream = s.rng.stream) (hr2 : r'.pos = s.rng.pos) :
    Inv r0 progs { s with rng := r', threads := setThread s.threads t (i + 1, rest), done := s.done ++ [(t, i, x)] } := by
  have hp := h.prog t
  rw [ht] at hp
  obtain ⟨p, hp1, hp2, hp3⟩ : ∃ p, (progs t)[i]? = some p ∧
      RM.Follows r0.stream p (drawsOf s.log t i) cur ∧ rest = (progs t).drop (i + 1) := by
    rcases hp with ⟨h0, -⟩ | ⟨p, h1, q, h2, h3⟩
    · cases h0
    · simp only [List.cons.injEq] at h3
      exact ⟨p, h1, h3.1 ▸ h2, h3.2⟩
  have hmono : ∀ u, (s.threads u).1 ≤ (setThread s.threads t (i + 1, rest) u).1 := by
    intro u
    by_cases hu : u = t
    · subst hu; rw [setThread_same, ht]; exact Nat.le_succ i
    · rw [setThread_other _ _ hu]
  refine ⟨hr1.trans h.stream, ?_, ?_, h.disj, ?_, ?_, ?_⟩
  · intro d hd; show _ ∧ _ ≤ r'.pos; rw [hr2]; exact h.above d hd
  · show _ ≤ r'.pos; rw [hr2]; exact h.posLe
  · exact fun d hd => (h.opLe d hd).trans (hmono _)
  · intro u
    show (setThread s.threads t (i + 1, rest) u).2 = [] ∧ _ ∨ _
    by_cases hu : u = t
    · subst hu
      dsimp only
      rw [setThread_same, drawsOf_future h u (i + 1) (by rw [ht]; exact Nat.lt_succ_self i)]
      dsimp only
      rw [hp3]
      rcases start_prog (progs u) (i + 1) with h | ⟨p, h1, h2⟩
      · exact .inl h
      · exact .inr ⟨p, h1, p, .nil p, h2⟩
    · dsimp only
      rw [setThread_other _ _ hu]; exact h.prog u
  · intro y hy
    rw [List.mem_append, List.mem_singleton] at hy
    rcases hy with hy | rfl
    · obtain ⟨h1, h2⟩ := h.fin y hy
      exact ⟨Nat.lt_of_lt_of_le h1 (hmono _), h2⟩
    · refine ⟨?_, p, hp1, ?_⟩
      · show i < (setThread s.threads t (i + 1, rest) t).1
        rw [setThread_same]; exact Nat.lt_succ_self i
      · rcases hx with hx | hx
        · exact .inl hx
        · exact .inr (hx ▸ hp2)

theorem inv_step {r0 : Rng} {progs : Nat → List (RM ε α)} {s : Sys ε α} (h : Inv r0 progs s) (t : Nat) :
    Inv r0 progs (s.step t) := by
  rcases hs : s.threads t with ⟨i, l⟩
  match l with
  | [] => simp only [step, hs]; exact h
  | .ret x :: rest =>
    simp only [step, hs]
    exact inv_finish h t i _ rest hs x (.inr rfl) s.rng rfl rfl
  | .draw n k :: rest =>
    simp only [step, hs]
    rcases hf : s.rng.fill n with ⟨o, r'⟩
    match o with
    | none =>
      dsimp only
      have : r'.stream = s.rng.stream ∧ r'.pos = s.rng.pos := by
        unfold Rng.fill at hf
        split at hf
        · cases hf; exact ⟨rfl, rfl⟩
        · split at hf
          · cases hf; exact ⟨rfl, rfl⟩
          · cases hf
      exact inv_finish h t i _ rest hs .panic (.inl rfl) r' this.1 this.2
    | some b =>
      dsimp only
      obtain ⟨-, -, hb, rfl⟩ := fill_ok hf
      have hp := h.prog t
      rw [hs] at hp
      obtain ⟨p, hp1, hp2, hp3⟩ : ∃ p, (progs t)[i]? = some p ∧
          RM.Follows r0.stream p (drawsOf s.log t i) (.draw n k) ∧ rest = (progs t).drop (i + 1) := by
        rcases hp with ⟨h0, -⟩ | ⟨p, h1, q, h2, h3⟩
        · cases h0
        · simp only [List.cons.injEq] at h3
          exact ⟨p, h1, h3.1 ▸ h2, h3.2⟩
      have hth : ∀ u, (setThread s.threads t (i, k b :: rest) u).1 = (s.threads u).1 := by
        intro u
        by_cases hu : u = t
        · subst hu; rw [setThread_same, hs]
        · rw [setThread_other _ _ hu]
      have hlog : ∀ u j, (u, j) ≠ (t, i) → drawsOf (s.log ++ [⟨t, i, s.rng.pos, n⟩]) u j = drawsOf s.log u j := by
        intro u j hne
        have : ¬ (t = u ∧ i = j) := fun hc => hne (by rw [hc.1, hc.2])
        simp [drawsOf, this]
      refine ⟨h.stream, ?_, ?_, ?_, ?_, ?_, ?_⟩
      · intro d hd
        show _ ∧ _ ≤ s.rng.pos + n
        rw [List.mem_append, List.mem_singleton] at hd
        rcases hd with hd | rfl
        · have := h.above d hd; exact ⟨this.1, by omega⟩
        · exact ⟨h.posLe, Nat.le_refl _⟩
      · show _ ≤ s.rng.pos + n
        have := h.posLe; omega
      · rw [List.pairwise_append]
        refine ⟨h.disj, by simp, ?_⟩
        intro d hd e he
        rw [List.mem_singleton] at he
        subst he
        exact (h.above d hd).2
      · intro d hd
        show d.op ≤ (setThread s.threads t (i, k b :: rest) d.thread).1
        rw [hth]
        rw [List.mem_append, List.mem_singleton] at hd
        rcases hd with hd | rfl
        · exact h.opLe d hd
        · show i ≤ (s.threads t).1; rw [hs]
      · intro u
        by_cases hu : u = t
        · subst hu
          refine .inr ⟨p, ?_, k b, ?_, ?_⟩
          · show (progs u)[(setThread s.threads u (i, k b :: rest) u).1]? = _
            rw [setThread_same]; exact hp1
          · dsimp only
            rw [setThread_same]
            dsimp only
            have : drawsOf (s.log ++ [⟨u, i, s.rng.pos, n⟩]) u i = drawsOf s.log u i ++ [⟨u, i, s.rng.pos, n⟩] := by
              simp [drawsOf]
            rw [this, hb, h.stream]
            exact RM.follows_snoc hp2 n k rfl ⟨u, i, s.rng.pos, n⟩ rfl
          · dsimp only
            rw [setThread_same]
            dsimp only
            rw [hp3]
        · have := h.prog u
          dsimp only
          rw [setThread_other _ _ hu, hlog u _ (fun hc => hu (by cases hc; rfl))]
          exact this
      · intro y hy
        obtain ⟨h1, q, h2, h3⟩ := h.fin y hy
        refine ⟨?_, q, h2, ?_⟩
        · show _ < (setThread s.threads t (i, k b :: rest) y.1).1; rw [hth]; exact h1
        · dsimp only
          rw [hlog]
          · exact h3
          · intro hc
            simp only [Prod.mk.injEq] at hc
            rw [hc.1, hs, hc.2] at h1
            exact absurd h1 (Nat.lt_irrefl _)

theorem inv_exec (r0 : Rng) (progs : Nat → List (RM ε α)) (sched : List Nat) :
    Inv r0 progs ((start r0 progs).exec sched) := by
  suffices ∀ s, Inv r0 progs s → Inv r0 progs (s.exec sched) from this _ (inv_start r0 progs)
  induction sched with
  | nil => exact fun s h => h
  | cons t ts ih => exact fun s h => ih _ (inv_step h t)

end Sys
end KC
