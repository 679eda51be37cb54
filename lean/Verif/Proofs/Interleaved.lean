import Mathlib.Algebra.BigOperators.Intervals
import Mathlib.Data.List.Forall2
import Verif.Proofs.Birthday
/-
Counting the outputs of the random source for which calls of several threads meet a repetition.
-/
namespace KC.Proofs.Birthday
open KC KC.Manager KC.Props KC.Spec.Birthday KC.Spec.Crypt KC.Spec.Wallet KC.Crypt

/-- Bytes that are to be equal to bytes elsewhere can be left out. -/
theorem cnt_agree (T w : Nat) (L L' : List Nat) (h1 : L.length = w) (h2 : L'.length = w) (hb : ∀ x ∈ L, x < T) (hb' : ∀ x ∈ L', x < T)
    (hn : L'.Nodup) (hd : ∀ x ∈ L, x ∉ L') :
    cnt T (fun b => L.map (fun i => b.getD i 0) = L'.map fun i => b.getD i 0) * 256 ^ w ≤ 256 ^ T := by
  classical
  let J : Finset (Fin T) := Finset.univ.filter fun x => x.val ∈ L'
  have hJ : J.card = w := by
    rw [← h2, ← List.toFinset_card_of_nodup hn]
    refine Finset.card_bij (fun x _ => x.val) (fun x hx => ?_) (fun x _ y _ h => Fin.ext h) (fun x hx => ?_)
    · simpa [J] using hx
    · have hx : x ∈ L' := by simpa using hx
      exact ⟨⟨x, hb' x hx⟩, by simpa [J] using hx, rfl⟩
  have hwT : w ≤ T := by
    rw [← hJ]
    exact Nat.le_trans (Finset.card_le_univ _) (by simp)
  have hcard : Fintype.card ({x : Fin T // x ∉ J} → UInt8) = 256 ^ (T - w) := by
    rw [Fintype.card_fun, card_byte, Fintype.card_subtype_compl, Fintype.card_coe, Fintype.card_fin, hJ]
  have hle : cnt T (fun b => L.map (fun i => b.getD i 0) = L'.map fun i => b.getD i 0) ≤ 256 ^ (T - w) := by
    have hc : cnt T (fun b => L.map (fun i => b.getD i 0) = L'.map fun i => b.getD i 0) = (Finset.univ.filter fun v : Fin T → UInt8 =>
        L.map (fun i => (List.ofFn v).getD i 0) = L'.map fun i => (List.ofFn v).getD i 0).card := by
      rw [Finset.card_filter, cnt]
      exact Finset.sum_congr rfl fun v _ => by congr
    rw [hc, ← hcard, ← Finset.card_univ]
    refine Finset.card_le_card_of_injOn (fun v x => v x.val) (fun _ _ => Finset.mem_univ _) ?_
    intro v hv v' hv' he
    simp only [Finset.coe_filter, Finset.mem_univ, true_and, Set.mem_ofPred_eq] at hv hv'
    have off : ∀ x, x ∉ J → v x = v' x := fun x hx => congrFun he ⟨x, hx⟩
    funext x
    by_cases hx : x ∈ J
    · have hx' : x.val ∈ L' := by simpa [J] using hx
      obtain ⟨i, hi, hi'⟩ := List.getElem_of_mem hx'
      have hiL : i < L.length := by omega
      have a1 := congrArg (·[i]?) hv
      have a2 := congrArg (·[i]?) hv'
      simp only [List.getElem?_map, List.getElem?_eq_getElem hi, List.getElem?_eq_getElem hiL, Option.map_some, Option.some.injEq, hi'] at a1 a2
      have hy : L[i] < T := hb _ (List.getElem_mem _)
      simp only [List.getD_eq_getElem?_getD, List.getElem?_ofFn, x.isLt, hy, dif_pos, Option.getD_some] at a1 a2
      have := off ⟨L[i], hy⟩ (by simpa [J] using hd _ (List.getElem_mem hiL))
      rw [← a1, ← a2, this]
    · exact off x hx
  calc _ ≤ 256 ^ (T - w) * 256 ^ w := Nat.mul_le_mul_right _ hle
    _ = 256 ^ T := by rw [← Nat.pow_add, Nat.sub_add_cancel hwT]

/-- The two programs draw alike, whatever they are given, and end alike. -/
inductive Sim : RM Error Out → RM Error Out → Prop
  | ret (x y : Res Error Out) : ((∃ b, x = .ok (.blob b)) ↔ ∃ b, y = .ok (.blob b)) → Sim (.ret x) (.ret y)
  | draw (n : Nat) (k k' : Bytes → RM Error Out) : (∀ b b' : Bytes, b.length = n → b'.length = n → Sim (k b) (k' b')) →
      Sim (.draw n k) (.draw n k')

theorem sim_call (E : Env) (M : Manager) (c : Call) : Sim (c.prog E M) (c.prog E M) := by
  rcases call_shape E M c with ⟨x, hx, hno⟩ | ⟨data, pw, -, hx⟩ | ⟨l, hs, k, hx, hk⟩
  · rw [hx]
    exact .ret _ _ Iff.rfl
  · rw [hx, encrypt_eq]
    refine .draw _ _ _ fun b b' _ _ => .draw _ _ _ fun _ _ _ _ => .ret _ _ ?_
    exact ⟨fun _ => ⟨_, rfl⟩, fun _ => ⟨_, rfl⟩⟩
  · rw [hx]
    refine .draw _ _ _ fun b b' hb hb' => ?_
    obtain ⟨t, -, h1⟩ := hk b hb
    obtain ⟨t', -, h2⟩ := hk b' hb'
    rw [h1, h2]
    exact .ret _ _ ⟨nofun, nofun⟩

/-- Two states that differ in the bytes drawn only. -/
structure Like (s s' : Sys Error Out) : Prop where
  pos : s.rng.pos = s'.rng.pos
  calls : s.rng.calls = s'.rng.calls
  fails : s.rng.fails = s'.rng.fails
  poisoned : s.rng.poisoned = s'.rng.poisoned
  count : ∀ t, (s.threads t).1 = (s'.threads t).1
  progs : ∀ t, List.Forall₂ Sim (s.threads t).2 (s'.threads t).2
  log : s.log = s'.log
  done : List.Forall₂ (fun x y => x.1 = y.1 ∧ x.2.1 = y.2.1 ∧ ((∃ b, x.2.2 = .ok (.blob b)) ↔ ∃ b, y.2.2 = .ok (.blob b))) s.done s'.done

theorem like_step {s s' : Sys Error Out} (h : Like s s') (t : Nat) : Like (s.step t) (s'.step t) := by
  have hc := h.count t
  have hp := h.progs t
  rcases hs : s.threads t with ⟨i, ps⟩
  rcases hs' : s'.threads t with ⟨i', ps'⟩
  rw [hs, hs'] at hc hp
  obtain rfl : i = i' := hc
  have set : ∀ (j : Nat) (l l' : List (RM Error Out)), List.Forall₂ Sim l l' →
      (∀ u, (Sys.setThread s.threads t (j, l) u).1 = (Sys.setThread s'.threads t (j, l') u).1) ∧
      ∀ u, List.Forall₂ Sim (Sys.setThread s.threads t (j, l) u).2 (Sys.setThread s'.threads t (j, l') u).2 := by
    intro j l l' hl
    constructor <;> intro u <;> by_cases hu : u = t
    · subst hu; rw [Sys.setThread_same, Sys.setThread_same]
    · rw [Sys.setThread_other _ _ hu, Sys.setThread_other _ _ hu]; exact h.count u
    · subst hu; rw [Sys.setThread_same, Sys.setThread_same]; exact hl
    · rw [Sys.setThread_other _ _ hu, Sys.setThread_other _ _ hu]; exact h.progs u
  have snoc : ∀ x y : Res Error Out, ((∃ b, x = .ok (.blob b)) ↔ ∃ b, y = .ok (.blob b)) →
      List.Forall₂ (fun x y => x.1 = y.1 ∧ x.2.1 = y.2.1 ∧ ((∃ b, x.2.2 = .ok (.blob b)) ↔ ∃ b, y.2.2 = .ok (.blob b)))
        (s.done ++ [(t, i, x)]) (s'.done ++ [(t, i, y)]) := fun x y hxy =>
    List.rel_append h.done (.cons ⟨rfl, rfl, hxy⟩ .nil)
  cases hp with
  | nil =>
    simp only [Sys.step, hs, hs']
    exact h
  | cons hq hr =>
    cases hq with
    | ret x y hxy =>
      simp only [Sys.step, hs, hs']
      obtain ⟨c1, c2⟩ := set (i + 1) _ _ hr
      exact ⟨h.pos, h.calls, h.fails, h.poisoned, c1, c2, h.log, snoc x y hxy⟩
    | draw n k k' hk =>
      obtain ⟨c1, c2⟩ := set (i + 1) _ _ hr
      by_cases h1 : s.rng.poisoned = true
      · have f : s.rng.fill n = (none, s.rng) := by rw [Rng.fill, if_pos h1]
        have f' : s'.rng.fill n = (none, s'.rng) := by rw [Rng.fill, if_pos (h.poisoned ▸ h1)]
        simp only [Sys.step, hs, hs', f, f']
        exact ⟨h.pos, h.calls, h.fails, h.poisoned, c1, c2, h.log, snoc _ _ Iff.rfl⟩
      · have h1' : ¬ s'.rng.poisoned = true := h.poisoned ▸ h1
        by_cases h2 : s.rng.fails s.rng.calls = true
        · have h2' : s'.rng.fails s'.rng.calls = true := by rw [← h.fails, ← h.calls]; exact h2
          have f : s.rng.fill n = (none, { s.rng with calls := s.rng.calls + 1, poisoned := true }) := by
            rw [Rng.fill, if_neg h1, if_pos h2]
          have f' : s'.rng.fill n = (none, { s'.rng with calls := s'.rng.calls + 1, poisoned := true }) := by
            rw [Rng.fill, if_neg h1', if_pos h2']
          simp only [Sys.step, hs, hs', f, f']
          exact ⟨h.pos, congrArg (· + 1) h.calls, h.fails, rfl, c1, c2, h.log, snoc _ _ Iff.rfl⟩
        · have h2' : ¬ s'.rng.fails s'.rng.calls = true := by rw [← h.fails, ← h.calls]; exact h2
          have f : s.rng.fill n = (some ((List.range n).map fun j => s.rng.stream (s.rng.pos + j)),
              { s.rng with pos := s.rng.pos + n, calls := s.rng.calls + 1 }) := by rw [Rng.fill, if_neg h1, if_neg h2]
          have f' : s'.rng.fill n = (some ((List.range n).map fun j => s'.rng.stream (s'.rng.pos + j)),
              { s'.rng with pos := s'.rng.pos + n, calls := s'.rng.calls + 1 }) := by rw [Rng.fill, if_neg h1', if_neg h2']
          simp only [Sys.step, hs, hs', f, f']
          obtain ⟨c1, c2⟩ := set i _ _ (.cons (hk ((List.range n).map fun j => s.rng.stream (s.rng.pos + j))
            ((List.range n).map fun j => s'.rng.stream (s'.rng.pos + j)) (by simp) (by simp)) hr)
          exact ⟨congrArg (· + n) h.pos, congrArg (· + 1) h.calls, h.fails, h.poisoned, c1, c2, by simp only [h.log, h.pos], h.done⟩

theorem like_exec {s s' : Sys Error Out} (h : Like s s') (sched : List Nat) : Like (s.exec sched) (s'.exec sched) := by
  induction sched generalizing s s' with
  | nil => exact h
  | cons t ts ih => exact ih (like_step h t)

/-- No operation finishes twice. -/
theorem done_nodup {ε α : Type} (r0 : Rng) (progs : Nat → List (RM ε α)) (sched : List Nat) :
    (((Sys.start r0 progs).exec sched).done.map fun x => (x.1, x.2.1)).Nodup := by
  suffices ∀ s : Sys ε α, Sys.Inv r0 progs s → (s.done.map fun x => (x.1, x.2.1)).Nodup →
      ((s.exec sched).done.map fun x => (x.1, x.2.1)).Nodup from
    this _ (Sys.inv_start r0 progs) (by simp [Sys.start])
  induction sched with
  | nil => exact fun s _ h => h
  | cons t ts ih =>
    intro s hi hn
    refine ih _ (Sys.inv_step hi t) ?_
    rcases hs : s.threads t with ⟨i, ps⟩
    have add : ∀ x, ((s.done ++ [(t, i, x)]).map fun x : Nat × Nat × Res ε α => (x.1, x.2.1)).Nodup := by
      intro x
      rw [List.map_append, List.nodup_append]
      refine ⟨hn, by simp, ?_⟩
      intro a ha b hb hab
      simp only [List.map_cons, List.map_nil, List.mem_singleton] at hb
      subst hb
      subst hab
      obtain ⟨y, hy, hy'⟩ := List.mem_map.mp ha
      simp only [Prod.mk.injEq] at hy'
      have := (hi.fin y hy).1
      rw [hy'.1, hy'.2, hs] at this
      exact Nat.lt_irrefl _ this
    match ps, hs with
    | [], hs => simpa only [Sys.step, hs] using hn
    | .ret x :: rest, hs => simpa only [Sys.step, hs] using add x
    | .draw n k :: rest, hs =>
      rcases hf : s.rng.fill n with ⟨_ | b, r'⟩
      · simpa only [Sys.step, hs, hf] using add .panic
      · simpa only [Sys.step, hs, hf] using hn

/-- The union bound. -/
theorem cnt_exists {ι : Type} (T : Nat) (P : Bytes → Prop) (s : Finset ι) (Q : ι → Bytes → Prop)
    (h : ∀ b, b.length = T → P b → ∃ x ∈ s, Q x b) : cnt T P ≤ ∑ x ∈ s, cnt T (Q x) := by
  classical
  simp only [cnt]
  rw [Finset.sum_comm]
  refine Finset.sum_le_sum fun v _ => ?_
  by_cases hv : P (List.ofFn v)
  · obtain ⟨x, hx, hq⟩ := h _ (by simp) hv
    rw [if_pos hv]
    calc 1 = if Q x (List.ofFn v) then 1 else 0 := by rw [if_pos hq]
      _ ≤ _ := Finset.single_le_sum (f := fun x => if Q x (List.ofFn v) then 1 else 0) (fun _ _ => Nat.zero_le _) hx
  · rw [if_neg hv]
    exact Nat.zero_le _

/-- The finished calls that gave a blob: which ones, and what the blob begins with. -/
def tagged (done : List (Nat × Nat × Res Error Out)) : List ((Nat × Nat) × Bytes) :=
  done.filterMap fun
    | (t, i, .ok (.blob b)) => some ((t, i), b.take 44)
    | _ => none

theorem tagged_marks (done : List (Nat × Nat × Res Error Out)) :
    marks opening (done.map fun x => x.2.2) = (tagged done).map Prod.snd := by
  induction done with
  | nil => rfl
  | cons x done ih =>
    obtain ⟨t, i, x⟩ := x
    rw [marks] at *
    rw [tagged] at *
    cases x with
    | ok o =>
      cases o with
      | text s => simpa [opening] using ih
      | blob b => simpa [opening] using ih
    | err e => simpa using ih
    | panic => simpa using ih

theorem tagged_mem {done : List (Nat × Nat × Res Error Out)} {y : (Nat × Nat) × Bytes} (h : y ∈ tagged done) :
    ∃ b, (y.1.1, y.1.2, .ok (.blob b)) ∈ done ∧ y.2 = b.take 44 := by
  obtain ⟨⟨t, i, x⟩, hx, hy⟩ := List.mem_filterMap.mp h
  cases x with
  | ok o =>
    cases o with
    | text s => cases hy
    | blob b => cases hy; exact ⟨b, hx, rfl⟩
  | err e => cases hy
  | panic => cases hy

theorem tagged_like {d d' : List (Nat × Nat × Res Error Out)}
    (h : List.Forall₂ (fun x y => x.1 = y.1 ∧ x.2.1 = y.2.1 ∧ ((∃ b, x.2.2 = .ok (.blob b)) ↔ ∃ b, y.2.2 = .ok (.blob b))) d d') :
    (tagged d).map Prod.fst = (tagged d').map Prod.fst := by
  induction h with
  | nil => rfl
  | @cons x y _ _ hxy _ ih =>
    obtain ⟨t, i, x⟩ := x
    obtain ⟨t', i', y⟩ := y
    obtain ⟨rfl, rfl, hb⟩ := hxy
    by_cases hx : ∃ b, x = .ok (.blob b)
    · obtain ⟨b', hb'⟩ := hb.mp hx
      obtain ⟨b, rfl⟩ := hx
      simp only at hb'
      subst hb'
      simpa [tagged] using ih
    · have hy : ¬ ∃ b, y = .ok (.blob b) := fun h => hx (hb.mpr h)
      have e : ∀ (z : Res Error Out) (l : List (Nat × Nat × Res Error Out)), (¬ ∃ b, z = .ok (.blob b)) → tagged ((t, i, z) :: l) = tagged l := by
        intro z l hz
        cases z with
        | ok o =>
          cases o with
          | text s => rfl
          | blob b => exact absurd ⟨b, rfl⟩ hz
        | err e => rfl
        | panic => rfl
      rw [e x _ hx, e y _ hy, ih]

theorem tagged_sub (d : List (Nat × Nat × Res Error Out)) : ((tagged d).map Prod.fst).Sublist (d.map fun x => (x.1, x.2.1)) := by
  induction d with
  | nil => exact .slnil
  | cons x d ih =>
    obtain ⟨t, i, x⟩ := x
    cases x with
    | ok o =>
      cases o with
      | text s => exact ih.cons _
      | blob b => exact ih.cons_cons _
    | err e => exact ih.cons _
    | panic => exact ih.cons _

/-- Where the bytes of an operation are in the output of the source. -/
def places (log : List Draw) (op : Nat × Nat) : List Nat :=
  (log.filter fun d => d.thread = op.1 ∧ d.op = op.2).flatMap fun d => (List.range d.len).map (d.pos + ·)

theorem places_nodup {log : List Draw} (h : log.Pairwise fun d e => d.pos + d.len ≤ e.pos) (op : Nat × Nat) : (places log op).Nodup := by
  rw [places, List.nodup_flatMap]
  refine ⟨fun d _ => ?_, (h.filter _).imp fun {d e} hde x hx hx' => ?_⟩
  · exact List.nodup_range.map fun a b hab => by simpa using hab
  · simp only [List.mem_map, List.mem_range] at hx hx'
    omega

theorem places_disjoint {log : List Draw} (h : log.Pairwise fun d e => d.pos + d.len ≤ e.pos) {op op' : Nat × Nat} (hne : op ≠ op') :
    ∀ x ∈ places log op, x ∉ places log op' := by
  intro x hx hx'
  simp only [places, List.mem_flatMap, List.mem_filter, decide_eq_true_eq, List.mem_map, List.mem_range] at hx hx'
  obtain ⟨d, ⟨hd, d1, d2⟩, a, ha, rfl⟩ := hx
  obtain ⟨e, ⟨he, e1, e2⟩, b, hb, hab⟩ := hx'
  have hde : d ≠ e := by
    rintro rfl
    exact hne (Prod.ext (d1.symm.trans e1) (d2.symm.trans e2))
  have key : ∀ {l : List Draw}, l.Pairwise (fun d e => d.pos + d.len ≤ e.pos) → d ∈ l → e ∈ l →
      d.pos + d.len ≤ e.pos ∨ e.pos + e.len ≤ d.pos := by
    intro l hl
    induction hl with
    | nil => nofun
    | cons hx _ ih =>
      intro hd he
      rcases List.mem_cons.mp hd with rfl | hd'
      · rcases List.mem_cons.mp he with rfl | he'
        · exact absurd rfl hde
        · exact .inl (hx _ he')
      · rcases List.mem_cons.mp he with rfl | he'
        · exact .inr (hx _ hd')
        · exact ih hd' he'
  have := key h hd he
  omega

end KC.Proofs.Birthday
