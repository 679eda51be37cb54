import Verif.Spec.CReuse
import Verif.Props.CCopies
/-
C112: C programs that use their variables again.
-/
namespace KC.Props
open KC.C KC.Spec.C

/-- The program with reused variables beside the one that takes a new variable for each result. -/
structure Mirror (n : NState) (s : State) (σ : Nat → Option Nat) : Prop where
  heap : n.heap = s.heap
  set : ∀ j v, n.vars j = some v → ∃ i, σ j = some i ∧ s.vars[i]? = some v
  unset : ∀ j, n.vars j = none → σ j = none
  inj : ∀ j j' i, σ j = some i → σ j' = some i → j = j'

theorem Mirror.get {n : NState} {s : State} {σ : Nat → Option Nat} (hm : Mirror n s σ) {j i : Nat} (h : σ j = some i) :
    ∃ v, n.vars j = some v ∧ s.vars[i]? = some v := by
  cases hv : n.vars j with
  | none => rw [hm.unset j hv] at h; cases h
  | some v =>
    obtain ⟨i', h1, h2⟩ := hm.set j v hv
    rw [h] at h1; cases h1
    exact ⟨v, rfl, h2⟩

/-- The variable in the other program. -/
def there (s : State) (σ : Nat → Option Nat) (j : Nat) : Nat := (σ j).getD s.vars.length

theorem Mirror.there {n : NState} {s : State} {σ : Nat → Option Nat} (hm : Mirror n s σ) (j : Nat) :
    s.vars[there s σ j]? = n.vars j := by
  cases hv : n.vars j with
  | none => simp [KC.Props.there, hm.unset j hv]
  | some v => obtain ⟨i, h1, h2⟩ := hm.set j v hv; simp [KC.Props.there, h1, h2]

theorem Mirror.write {n : NState} {s : State} {σ : Nat → Option Nat} (hm : Mirror n s σ) (h : Heap) (j : Nat) (v : Var) :
    Mirror (n.write h j v) ⟨h, s.vars ++ [v]⟩ (fun a => if a = j then some s.vars.length else σ a) where
  heap := rfl
  set a w hw := by
    simp only [NState.write] at hw
    by_cases ha : a = j
    · rw [if_pos ha] at hw ⊢; cases hw; exact ⟨_, rfl, by simp⟩
    · rw [if_neg ha] at hw ⊢
      obtain ⟨i, h1, h2⟩ := hm.set a w hw
      exact ⟨i, h1, by rw [List.getElem?_append_left (List.getElem?_eq_some_iff.mp h2).1]; exact h2⟩
  unset a hw := by
    simp only [NState.write] at hw
    by_cases ha : a = j
    · rw [if_pos ha] at hw; cases hw
    · rw [if_neg ha] at hw ⊢; exact hm.unset a hw
  inj a b i h1 h2 := by
    have lt : ∀ c, σ c ≠ some s.vars.length := by
      intro c hc
      obtain ⟨v, -, h⟩ := hm.get hc
      simp at h
    by_cases ha : a = j <;> by_cases hb : b = j
    · rw [ha, hb]
    · simp only [if_pos ha, if_neg hb] at h1 h2; cases h1; exact absurd h2 (lt b)
    · simp only [if_neg ha, if_pos hb] at h1 h2; cases h2; exact absurd h1 (lt a)
    · simp only [if_neg ha, if_neg hb] at h1 h2; exact hm.inj a b i h1 h2

/-- No variable refers to it any more. -/
def Orphan (s : State) (σ : Nat → Option Nat) (i : Nat) (v : Var) : Prop := s.vars[i]? = some v ∧ ∀ j, σ j ≠ some i

/-- A value in one memory is still there, unchanged, in a later one. -/
def Stays (W : Build) (h h' : Heap) (v : Var) : Prop :=
  (∀ c, Reads W h v.kind v.val c → ∃ c', Reads W h' v.kind v.val c' ∧ Same v.kind c c') ∧ (Gone h v.kind v.val → Gone h' v.kind v.val)

theorem stays_step {W : Build} {s s' : State} (hs : Sound W s) {op : Op} (ha : Allowed s op) (hst : s.step W op = .next s') {i : Nat}
    (hi : Spares i op) {v : Var} (hv : s.vars[i]? = some v) : s'.vars[i]? = some v ∧ Stays W s.heap s'.heap v := by
  obtain ⟨h1, h2, h3⟩ := C52_kept W s s' hs op ha hst i hi v hv
  exact ⟨h1, h2, h3⟩

theorem mirror_step {W : Build} {n : NState} {s : State} {σ : Nat → Option Nat} (hm : Mirror n s σ) (hs : Sound W s) (op : NOp)
    (ha : NAllowed n op) :
    (∃ n' s' σ', n.step W op = .next n' ∧ Mirror n' s' σ' ∧ Sound W s' ∧
      (∀ i v, Orphan s σ i v → Orphan s' σ' i v ∧ Stays W s.heap s'.heap v) ∧
      (∀ j v, Writes W n j op → n.vars j = some v → (∃ i, Orphan s' σ' i v) ∧ Stays W s.heap s'.heap v) ∧
      (∀ i v, Orphan s' σ' i v → Orphan s σ i v ∨ ∃ j, n.vars j = some v ∧ Writes W n j op) ∧
      ∀ i : Nat, s.heap[i]? = some none → s'.heap[i]? = some none) ∨
    n.step W op = .unwound := by
  cases op with
  | call k f x a o e val error =>
    have hhandle : n.handle f.handle a = s.handle f.handle (there s σ a) := by
      unfold NState.handle State.handle
      rw [hm.there a]
      rfl
    -- what follows when variable `j` is written
    have key : ∀ (j : Nat) (w : Var) (h : Heap),
        s.step W (.call k f x (there s σ a) (held k (n.vars o) val) (held .error (n.vars e) error)) = .next ⟨h, s.vars ++ [w]⟩ →
        Sound W ⟨h, s.vars ++ [w]⟩ →
        (∀ j', Writes W n j' (.call k f x a o e val error) ↔ j' = j) →
        Mirror (n.write h j w) ⟨h, s.vars ++ [w]⟩ (fun a => if a = j then some s.vars.length else σ a) ∧
        (∀ i v, Orphan s σ i v → Orphan ⟨h, s.vars ++ [w]⟩ (fun a => if a = j then some s.vars.length else σ a) i v ∧
          Stays W s.heap h v) ∧
        (∀ j' v, Writes W n j' (.call k f x a o e val error) → n.vars j' = some v →
          (∃ i, Orphan ⟨h, s.vars ++ [w]⟩ (fun a => if a = j then some s.vars.length else σ a) i v) ∧ Stays W s.heap h v) ∧
        ∀ i v, Orphan ⟨h, s.vars ++ [w]⟩ (fun a => if a = j then some s.vars.length else σ a) i v →
          Orphan s σ i v ∨ ∃ j', n.vars j' = some v ∧ Writes W n j' (.call k f x a o e val error) := by
      intro j w h hst _ hw
      refine ⟨hm.write h j w, ?_, ?_, ?_⟩
      · rintro i v ⟨h1, h2⟩
        obtain ⟨h3, h4⟩ := stays_step hs (op := .call ..) trivial hst (i := i) trivial h1
        refine ⟨⟨h3, fun b hb => ?_⟩, h4⟩
        by_cases hbj : b = j
        · simp only [if_pos hbj] at hb
          cases hb
          simp at h1
        · simp only [if_neg hbj] at hb
          exact h2 b hb
      · intro j' v hj' hv
        obtain rfl := (hw j').mp hj'
        obtain ⟨i, h1, h2⟩ := hm.set j' v hv
        obtain ⟨h3, h4⟩ := stays_step hs (op := .call ..) trivial hst (i := i) trivial h2
        refine ⟨⟨i, h3, fun b hb => ?_⟩, h4⟩
        by_cases hbj : b = j'
        · simp only [if_pos hbj] at hb
          cases hb
          simp at h2
        · simp only [if_neg hbj] at hb
          exact hbj (hm.inj b j' i hb h1)
      · rintro i v ⟨h1, h2⟩
        have hi : i ≠ s.vars.length := fun hi => h2 j (by simp [hi])
        have hlt : i < s.vars.length := by
          have := (List.getElem?_eq_some_iff.mp h1).1
          simp only [List.length_append, List.length_singleton] at this
          omega
        have h1' : s.vars[i]? = some v := by
          rw [← h1]; exact (List.getElem?_append_left hlt).symm
        by_cases hb : ∃ b, σ b = some i
        · obtain ⟨b, hb⟩ := hb
          obtain ⟨v', h3, h4⟩ := hm.get hb
          rw [h1'] at h4; cases h4
          refine .inr ⟨b, h3, (hw b).mpr ?_⟩
          by_contra hbj
          exact h2 b (by simp only [if_neg hbj]; exact hb)
        · exact .inl ⟨h1', fun b hb' => hb ⟨b, hb'⟩⟩
    have hcall := sound_call hs f x (there s σ a) (held k (n.vars o) val) (held .error (n.vars e) error)
    have hwr : ∀ j', Writes W n j' (.call k f x a o e val error) ↔
        (∃ v r h, f.call W x (s.handle f.handle (there s σ a)) (held k (n.vars o) val) (held .error (n.vars e) error) s.heap =
          .ret true v r h ∧ j' = o) ∨
        (∃ v r h, f.call W x (s.handle f.handle (there s σ a)) (held k (n.vars o) val) (held .error (n.vars e) error) s.heap =
          .ret false v r h ∧ j' = e) := by
      intro j'
      simp only [Writes, hhandle, hm.heap]
    have hstep : n.step W (.call k f x a o e val error) =
        match f.call W x (s.handle f.handle (there s σ a)) (held k (n.vars o) val) (held .error (n.vars e) error) s.heap with
        | .ret true v _ h => .next (n.write h o ⟨k, v⟩)
        | .ret false _ r h => .next (n.write h e ⟨.error, r⟩)
        | .unwind _ => .unwound
        | .ub => .ub := by
      simp only [NState.step, hhandle, hm.heap]
      rfl
    rw [hstep]
    have hs1 : s.step W (.call k f x (there s σ a) (held k (n.vars o) val) (held .error (n.vars e) error)) =
        match f.call W x (s.handle f.handle (there s σ a)) (held k (n.vars o) val) (held .error (n.vars e) error) s.heap with
        | .ret true v _ h => .next ⟨h, s.vars ++ [⟨k, v⟩]⟩
        | .ret false _ r h => .next ⟨h, s.vars ++ [⟨.error, r⟩]⟩
        | .unwind _ => .unwound
        | .ub => .ub := rfl
    rcases hc : f.call W x (s.handle f.handle (there s σ a)) (held k (n.vars o) val) (held .error (n.vars e) error) s.heap with
      ⟨b, v, r, h⟩ | _ | _
    · cases b with
      | true =>
        rw [hc] at hs1
        rcases hcall with ⟨s', w, h1, -, h3, -⟩ | h1
        · rw [hs1] at h1
          cases h1
          obtain ⟨k1, k2, k3, k4⟩ := key o ⟨k, v⟩ h hs1 h3 (fun j' => by
            rw [hwr j', hc]
            constructor
            · rintro (⟨_, _, _, _, h⟩ | ⟨_, _, _, h, _⟩)
              · exact h
              · cases h
            · exact fun h => .inl ⟨_, _, _, rfl, h⟩)
          exact .inl ⟨_, _, _, rfl, k1, h3, k2, k3, k4, fun i hi => dead_step hs (op := .call ..) trivial hs1 hi⟩
        · rw [hs1] at h1; cases h1
      | false =>
        rw [hc] at hs1
        rcases hcall with ⟨s', w, h1, -, h3, -⟩ | h1
        · rw [hs1] at h1
          cases h1
          obtain ⟨k1, k2, k3, k4⟩ := key e ⟨.error, r⟩ h hs1 h3 (fun j' => by
            rw [hwr j', hc]
            constructor
            · rintro (⟨_, _, _, h, _⟩ | ⟨_, _, _, _, h⟩)
              · cases h
              · exact h
            · exact fun h => .inr ⟨_, _, _, rfl, h⟩)
          exact .inl ⟨_, _, _, rfl, k1, h3, k2, k3, k4, fun i hi => dead_step hs (op := .call ..) trivial hs1 hi⟩
        · rw [hs1] at h1; cases h1
    · exact .inr rfl
    · rw [hc] at hs1
      rcases hcall with ⟨s', w, h1, -, h3, -⟩ | h1
      · rw [hs1] at h1; cases h1
      · rw [hs1] at h1; cases h1
  | delete j =>
    cases hv : n.vars j with
    | none =>
      refine .inl ⟨n, s, σ, by simp only [NState.step, hv], hm, hs, fun i v h => ⟨h, fun c hc => ⟨c, hc, Same.refl c⟩, id⟩,
        fun _ _ h => h.elim, fun i v h => .inl h, fun _ h => h⟩
    | some v =>
      obtain ⟨i, hi, hvi⟩ := hm.set j v hv
      have ha' : Allowed s (.delete i) := by
        intro w hw
        rw [hvi] at hw; cases hw
        have := ha v hv
        rw [hm.heap] at this
        exact this
      obtain ⟨s', h1, h2, -⟩ := sound_delete hs hvi ha'
      have hs1 := h1
      simp only [State.step, hvi] at h1
      have hstep : n.step W (.delete j) = match delete W v.kind v.val s.heap with
          | .ok v' h => .next (n.write h j ⟨v.kind, v'⟩)
          | .err e _ => nomatch e
          | .panic _ => .unwound
          | .ub => .ub := by
        simp only [NState.step, hv, hm.heap]
        rfl
      rw [hstep]
      rcases hd : delete W v.kind v.val s.heap with ⟨v', h⟩ | ⟨e, _⟩ | _ | _
      · rw [hd] at h1
        cases h1
        have hlt := (List.getElem?_eq_some_iff.mp hvi).1
        refine .inl ⟨_, _, σ, rfl, ⟨rfl, ?_, ?_, hm.inj⟩, h2, ?_, fun _ _ h => h.elim, ?_,
          fun b hb => dead_step hs ha' hs1 hb⟩
        · intro b w hw
          simp only [NState.write] at hw
          by_cases hb : b = j
          · rw [if_pos hb] at hw
            cases hw
            exact ⟨i, by rw [hb]; exact hi, by simp [hlt]⟩
          · rw [if_neg hb] at hw
            obtain ⟨i', h3, h4⟩ := hm.set b w hw
            have : i ≠ i' := fun h => hb (hm.inj b j i' h3 (by rw [← h]; exact hi))
            exact ⟨i', h3, by simp only [List.getElem?_set, if_neg this]; exact h4⟩
        · intro b hw
          simp only [NState.write] at hw
          by_cases hb : b = j
          · rw [if_pos hb] at hw; cases hw
          · rw [if_neg hb] at hw; exact hm.unset b hw
        · rintro b w ⟨h3, h4⟩
          have hne : i ≠ b := fun h => h4 j (by rw [← h]; exact hi)
          obtain ⟨h5, h6⟩ := stays_step hs ha' hs1 (i := b) hne h3
          exact ⟨⟨h5, h4⟩, h6⟩
        · rintro b w ⟨h3, h4⟩
          have hne : i ≠ b := fun h => h4 j (by rw [← h]; exact hi)
          simp only [List.getElem?_set, if_neg hne] at h3
          exact .inl ⟨h3, h4⟩
      · cases e
      · exact .inr rfl
      · rw [hd] at h1; cases h1

theorem Stays.refl (W : Build) (h : Heap) (v : Var) : Stays W h h v := ⟨fun c hc => ⟨c, hc, Same.refl c⟩, id⟩

theorem Stays.trans {W : Build} {h h' h'' : Heap} {v : Var} (a : Stays W h h' v) (b : Stays W h' h'' v) : Stays W h h'' v := by
  refine ⟨fun c hc => ?_, fun hg => b.2 (a.2 hg)⟩
  obtain ⟨c', h1, h2⟩ := a.1 c hc
  obtain ⟨c'', h3, h4⟩ := b.1 c' h1
  exact ⟨c'', h3, Same.trans h2 h4⟩

theorem mirror_run {W : Build} (ops : List NOp) {n : NState} {s : State} {σ : Nat → Option Nat} (hm : Mirror n s σ) (hs : Sound W s)
    (hf : NFollows W ops n) :
    (∃ n' s' σ', n.run W ops = .next n' ∧ Mirror n' s' σ' ∧ Sound W s' ∧
      (∀ i v, Orphan s σ i v → Orphan s' σ' i v ∧ Stays W s.heap s'.heap v) ∧
      (Tidy W ops n → (∀ i v, Orphan s σ i v → Gone s.heap v.kind v.val) → ∀ i v, Orphan s' σ' i v → Gone s'.heap v.kind v.val) ∧
      ∀ i : Nat, s.heap[i]? = some none → s'.heap[i]? = some none) ∨
    n.run W ops = .unwound := by
  induction ops generalizing n s σ with
  | nil => exact .inl ⟨n, s, σ, rfl, hm, hs, fun i v h => ⟨h, .refl ..⟩, fun _ h => h, fun _ h => h⟩
  | cons op ops ih =>
    rcases mirror_step hm hs op hf.1 with ⟨n', s', σ', h1, h2, h3, h4, h5, h6, h7⟩ | h
    · simp only [NState.run, h1]
      rcases ih h2 h3 (hf.2 n' h1) with ⟨n'', s'', σ'', k1, k2, k3, k4, k5, k6⟩ | h
      · refine .inl ⟨n'', s'', σ'', k1, k2, k3, fun i v hi => ?_, fun ht hg => k5 (ht.2 n' h1) fun i v hi => ?_,
          fun i hi => k6 i (h7 i hi)⟩
        · obtain ⟨a1, a2⟩ := h4 i v hi
          obtain ⟨b1, b2⟩ := k4 i v a1
          exact ⟨b1, a2.trans b2⟩
        · rcases h6 i v hi with ho | ⟨j, hj, hw⟩
          · exact (h4 i v ho).2.2 (hg i v ho)
          · refine (h5 j v hw hj).2.2 ?_
            rw [← hm.heap]
            exact ht.1 j v hw hj
      · exact .inr h
    · simp only [NState.run, h]
      exact .inr trivial

theorem mirror_start (W : Build) : Mirror NState.start ⟨[], []⟩ (fun _ => none) ∧ Sound W ⟨[], []⟩ :=
  ⟨⟨rfl, nofun, fun _ _ => rfl, nofun⟩, nofun, List.nodup_nil, fun i => by simp [State.owned]⟩

theorem no_orphan (i : Nat) (v : Var) : ¬ Orphan ⟨[], []⟩ (fun _ => none) i v := fun h => by
  have := h.1
  simp at this

theorem sound_disjoint {W : Build} {s : State} (hs : Sound W s) {i i' : Nat} {v v' : Var} (h : s.vars[i]? = some v)
    (h' : s.vars[i']? = some v') (hne : i ≠ i') {b : Nat} (hb : b ∈ owned s.heap v.kind v.val) : b ∉ owned s.heap v'.kind v'.val := by
  have hp := (List.nodup_flatMap.mp hs.once).2
  obtain ⟨l1, e1⟩ := List.getElem?_eq_some_iff.mp h
  obtain ⟨l2, e2⟩ := List.getElem?_eq_some_iff.mp h'
  rw [List.pairwise_iff_getElem] at hp
  intro hb'
  rcases Nat.lt_or_gt_of_ne hne with hlt | hlt
  · have := hp i i' l1 l2 hlt
    rw [e1, e2] at this
    exact this hb hb'
  · have := hp i' i l2 l1 hlt
    rw [e1, e2] at this
    exact this hb' hb

/-- C112: a program that writes results over variables as it likes, and follows the rule, has no undefined behaviour.  After every step
each variable is as it was handed out or deleted, the blocks it is responsible for are live, and no block has two owners. -/
theorem C112_safe (W : Build) (ops : List NOp) (hf : NFollows W ops .start) :
    NState.start.run W ops ≠ .ub ∧ ∀ n, NState.start.run W ops = .next n →
      (∀ j v, n.vars j = some v → ((∃ c, Reads W n.heap v.kind v.val c) ∨ Gone n.heap v.kind v.val) ∧
        (owned n.heap v.kind v.val).Nodup ∧ ∀ i ∈ owned n.heap v.kind v.val, n.heap[i]?.join.isSome) ∧
      ∀ j j' v v', n.vars j = some v → n.vars j' = some v' → j ≠ j' →
        ∀ i ∈ owned n.heap v.kind v.val, i ∉ owned n.heap v'.kind v'.val := by
  rcases mirror_run ops (mirror_start W).1 (mirror_start W).2 hf with ⟨n', s', σ', h1, hm, hs, -, -⟩ | h
  · rw [h1]
    refine ⟨nofun, fun n hn => ?_⟩
    cases hn
    rw [hm.heap]
    refine ⟨fun j v hv => ?_, fun j j' v v' hv hv' hne i hi => ?_⟩
    · obtain ⟨i, -, h3⟩ := hm.set j v hv
      have hmem := List.mem_of_getElem? h3
      exact ⟨hs.held v hmem, (List.nodup_flatMap.mp hs.once).1 v hmem,
        fun b hb => (hs.exact b).mpr (List.mem_flatMap.mpr ⟨v, hmem, hb⟩)⟩
    · obtain ⟨a, a1, a2⟩ := hm.set j v hv
      obtain ⟨b, b1, b2⟩ := hm.set j' v' hv'
      exact sound_disjoint hs a2 b2 (fun h => hne (hm.inj j j' b (by rw [← h]; exact a1) b1)) hi
  · rw [h]
    exact ⟨nofun, nofun⟩

/-- C112: if the program deletes what a variable holds before something else is written to it, the live blocks are just those its
variables are responsible for: nothing is lost. -/
theorem C112_tidy (W : Build) (ops : List NOp) (hf : NFollows W ops .start) (ht : Tidy W ops .start) (n : NState)
    (hn : NState.start.run W ops = .next n) (i : Nat) :
    n.heap[i]?.join.isSome ↔ ∃ j v, n.vars j = some v ∧ i ∈ owned n.heap v.kind v.val := by
  rcases mirror_run ops (mirror_start W).1 (mirror_start W).2 hf with ⟨n', s', σ', h1, hm, hs, -, h5, -⟩ | h
  · rw [h1] at hn
    cases hn
    rw [hm.heap, hs.exact i]
    constructor
    · intro hi
      obtain ⟨v, hv, hi⟩ := List.mem_flatMap.mp hi
      obtain ⟨a, ha⟩ := List.mem_iff_getElem?.mp hv
      by_cases hb : ∃ b, σ' b = some a
      · obtain ⟨b, hb⟩ := hb
        obtain ⟨w, h3, h4⟩ := hm.get hb
        rw [ha] at h4; cases h4
        exact ⟨b, v, h3, hi⟩
      · have := gone_owned (h5 ht (fun i v h => absurd h (no_orphan i v)) a v ⟨ha, fun j hj => hb ⟨j, hj⟩⟩)
        rw [this] at hi; cases hi
    · rintro ⟨j, v, hv, hi⟩
      obtain ⟨a, -, a2⟩ := hm.set j v hv
      exact List.mem_flatMap.mpr ⟨v, List.mem_of_getElem? a2, hi⟩
  · rw [h] at hn; cases hn

theorem run_split {W : Build} {op : NOp} {after : List NOp} {n : NState} (l : List NOp) {m : NState}
    (h1 : NFollows W (l ++ op :: after) m) (h2 : m.run W l = .next n) :
    NFollows W l m ∧ NFollows W (op :: after) n ∧ m.run W (l ++ op :: after) = n.run W (op :: after) := by
  induction l generalizing m with
  | nil => cases h2; exact ⟨trivial, h1, rfl⟩
  | cons a l ih =>
    simp only [NState.run, List.cons_append] at h2 ⊢
    cases hst : m.step W a with
    | next m' =>
      rw [hst] at h2
      obtain ⟨k1, k2, k3⟩ := ih (h1.2 m' hst) h2
      exact ⟨⟨h1.1, fun x hx => by rw [hst] at hx; cases hx; exact k1⟩, k2, k3⟩
    | unwound => rw [hst] at h2; cases h2
    | ub => rw [hst] at h2; cases h2

/-- C112: what a call writes over is lost for good: whatever the program does from then on, the value stays in memory with the content it
had, its blocks are live, and no variable is responsible for them. -/
theorem C112_lost (W : Build) (before : List NOp) (op : NOp) (after : List NOp) (hf : NFollows W (before ++ op :: after) .start)
    (n n' : NState) (hn : NState.start.run W before = .next n) (hn' : NState.start.run W (before ++ op :: after) = .next n')
    (j : Nat) (hw : Writes W n j op) (v : Var) (hv : n.vars j = some v) (c : Content v.kind) (hc : Reads W n.heap v.kind v.val c) :
    (∃ c', Reads W n'.heap v.kind v.val c' ∧ Same v.kind c c') ∧
    ∀ i ∈ owned n'.heap v.kind v.val, n'.heap[i]?.join.isSome ∧ ∀ k w, n'.vars k = some w → i ∉ owned n'.heap w.kind w.val := by
  obtain ⟨f1, f2, f3⟩ := run_split before hf hn
  rw [f3] at hn'
  rcases mirror_run before (mirror_start W).1 (mirror_start W).2 f1 with ⟨n1, s1, σ1, h1, hm, hs, -, -⟩ | h
  · rw [hn] at h1
    cases h1
    rcases mirror_step hm hs op f2.1 with ⟨n2, s2, σ2, g1, g2, g3, -, g5, -⟩ | h
    · simp only [NState.run, g1] at hn'
      obtain ⟨⟨a, ho⟩, st⟩ := g5 j v hw hv
      rcases mirror_run after g2 g3 (f2.2 n2 g1) with ⟨n3, s3, σ3, k1, k2, k3, k4, -⟩ | h
      · rw [k1] at hn'
        cases hn'
        obtain ⟨o1, o2⟩ := k4 a v ho
        rw [k2.heap]
        refine ⟨(st.trans o2).1 c (by rw [← hm.heap]; exact hc), fun i hi => ⟨?_, fun k w hk => ?_⟩⟩
        · exact (k3.exact i).mpr (List.mem_flatMap.mpr ⟨v, List.mem_of_getElem? o1.1, hi⟩)
        · obtain ⟨b, b1, b2⟩ := k2.set k w hk
          exact sound_disjoint k3 o1.1 b2 (fun h => o1.2 k (by rw [h]; exact b1)) hi
      · rw [h] at hn'; cases hn'
    · simp only [NState.run, h] at hn'; cases hn'
  · rw [hn] at h; cases h

/-- C112: C113 for such programs: of a value that holds memory, once it is deleted, deleting a copy made before is undefined behaviour
ever after, and so is calling any function with a copy of the handle, whatever was written to the variable meanwhile. -/
theorem C112_copies (W : Build) (before : List NOp) (j : Nat) (after : List NOp) (hf : NFollows W (before ++ .delete j :: after) .start)
    (n n' : NState) (hn : NState.start.run W before = .next n) (hn' : NState.start.run W (before ++ .delete j :: after) = .next n')
    (v : Var) (hv : n.vars j = some v) (c : Content v.kind) (hc : Reads W n.heap v.kind v.val c) (ho : owned n.heap v.kind v.val ≠ []) :
    delete W v.kind v.val n'.heap = .ub ∧
    ∀ (k : Kind) (f : Fn k) (x : Ctx) (val : Val k) (err : ErrorPtr), f.handle = some v.kind →
      f.call W x (v.handle (some v.kind)) val err n'.heap = .ub := by
  obtain ⟨f1, f2, f3⟩ := run_split before hf hn
  rw [f3] at hn'
  rcases mirror_run before (mirror_start W).1 (mirror_start W).2 f1 with ⟨n1, s1, σ1, h1, hm, hs, -, -⟩ | h
  · rw [hn] at h1
    cases h1
    obtain ⟨i, -, hvi⟩ := hm.set j v hv
    have ha : Allowed s1 (.delete i) := by
      intro w hw
      rw [hvi] at hw; cases hw
      have := f2.1 v hv
      rw [hm.heap] at this
      exact this
    obtain ⟨t, v', e1, -, -, e2, -⟩ := C52_delete W s1 hs i v hvi ha
    have hheap : ∀ n2, n.step W (.delete j) = .next n2 → n2.heap = t.heap := by
      intro n2 h2
      simp only [State.step, hvi] at e1
      simp only [NState.step, hv, hm.heap] at h2
      rcases hd : delete W v.kind v.val s1.heap with ⟨w, h⟩ | ⟨e, _⟩ | _ | _
      · rw [hd] at e1 h2; cases e1; cases h2; rfl
      · cases e
      · rw [hd] at e1; cases e1
      · rw [hd] at e1; cases e1
    rcases mirror_step hm hs (.delete j) f2.1 with ⟨n2, s2, σ2, g1, g2, g3, -, -, -, -⟩ | h
    · simp only [NState.run, g1] at hn'
      rcases mirror_run after g2 g3 (f2.2 n2 g1) with ⟨n3, s3, σ3, k1, k2, k3, -, -, k5⟩ | h
      · rw [k1] at hn'
        cases hn'
        rw [hm.heap] at hc ho
        have dead : ∀ b ∈ owned s1.heap v.kind v.val, n'.heap[b]? = some none := by
          intro b hb
          rw [k2.heap]
          refine k5 b ?_
          rw [← g2.heap, hheap n2 g1]
          exact e2 b hb
        refine ⟨C113_stale W s1.heap n'.heap v.kind v.val c hc ho dead, fun k f x val err hk => ?_⟩
        clear hn hf f1 f2 f3 hv hvi ha e1 e2 hheap
        obtain ⟨kv, v⟩ := v
        cases kv with
        | keychain =>
          obtain ⟨b, rfl, -⟩ := hc
          exact C113_handle W x f (by rw [hk]; nofun) val err _ b (dead b (List.mem_singleton.mpr rfl))
        | manager =>
          obtain ⟨b, rfl, -⟩ := hc
          exact C113_handle W x f (by rw [hk]; nofun) val err _ b (dead b (List.mem_singleton.mpr rfl))
        | _ => cases f <;> cases hk
      · rw [h] at hn'; cases hn'
    · simp only [NState.run, h] at hn'; cases hn'
  · rw [hn] at h; cases h

/-! ### Non-vacuity -/

/-- A check that a program follows the rule. -/
def nallowedB (s : NState) : NOp → Bool
  | .call .. => true
  | .delete j =>
    match s.vars j with
    | some ⟨.text, p⟩ => isLive s.heap p
    | some ⟨.networks, n⟩ => n.count == 0 || n.ptr == .null
    | _ => true

def nfollowsB (W : Build) : List NOp → NState → Bool
  | [], _ => true
  | op :: ops, s => nallowedB s op && match s.step W op with
    | .next s' => nfollowsB W ops s'
    | _ => true

theorem nfollowsB_sound (W : Build) (ops : List NOp) (s : NState) (h : nfollowsB W ops s = true) : NFollows W ops s := by
  induction ops generalizing s with
  | nil => trivial
  | cons op ops ih =>
    simp only [nfollowsB, Bool.and_eq_true] at h
    refine ⟨?_, fun s' hs' => ?_⟩
    · cases op with
      | call => trivial
      | delete j =>
        intro v hv
        have h := h.1
        simp only [nallowedB, hv] at h
        obtain ⟨k, v⟩ := v
        cases k with
        | text => exact h
        | networks => simpa using h
        | _ => trivial
    · rw [hs'] at h
      exact ih s' h.2

/-- A check that errors are deleted (and nothing else is held) where something is written. -/
def clearB (s : NState) (j : Nat) : Bool :=
  match s.vars j with
  | none => true
  | some ⟨.error, e⟩ => e.message == .null
  | some ⟨.manager, p⟩ => p == .null
  | _ => false

def tidyStepB (W : Build) (s : NState) : NOp → Bool
  | .call k f x i o e val error =>
    match f.call W x (s.handle f.handle i) (held k (s.vars o) val) (held .error (s.vars e) error) s.heap with
    | .ret true _ _ _ => clearB s o
    | .ret false _ _ _ => clearB s e
    | _ => true
  | .delete _ => true

def tidyB (W : Build) : List NOp → NState → Bool
  | [], _ => true
  | op :: ops, s => tidyStepB W s op && match s.step W op with
    | .next s' => tidyB W ops s'
    | _ => true

theorem clearB_sound {s : NState} {j : Nat} (h : clearB s j = true) (v : Var) (hv : s.vars j = some v) : Gone s.heap v.kind v.val := by
  unfold clearB at h
  rw [hv] at h
  obtain ⟨k, v⟩ := v
  cases k with
  | error => exact eq_of_beq h
  | manager => exact eq_of_beq h
  | _ => cases h

theorem tidyB_sound (W : Build) (ops : List NOp) (s : NState) (h : tidyB W ops s = true) : Tidy W ops s := by
  induction ops generalizing s with
  | nil => trivial
  | cons op ops ih =>
    simp only [tidyB, Bool.and_eq_true] at h
    refine ⟨fun j v hw hv => ?_, fun s' hs' => ?_⟩
    · have h := h.1
      cases op with
      | delete => exact hw.elim
      | call k f x i o e val error =>
        rcases hw with ⟨a, b, c, hc, rfl⟩ | ⟨a, b, c, hc, rfl⟩
        · simp only [tidyStepB, hc] at h
          exact clearB_sound h v hv
        · simp only [tidyStepB, hc] at h
          exact clearB_sound h v hv
    · have h := h.2
      rw [hs'] at h
      exact ih s' h

/-- Makes a manager in variable 0, or gets a path refused, with the error in variable 1. -/
def makeManager : NOp := .call .manager (.managerNew countingRng) toyCtx 0 0 1 .null ⟨.panic, .null⟩
def badPath : NOp := .call .path (.keypathFromString ⟨[110], by decide⟩) toyCtx 0 2 1 ⟨0, 0, 0, 0, 0⟩ ⟨.panic, .null⟩

/-- The live blocks, and those that variables 0, 1 and 2 are responsible for. -/
def nsummary : NStep → Option (List Nat × List (List Nat))
  | .next s => some ((List.range s.heap.length).filter fun i => s.heap[i]?.join.isSome,
      [0, 1, 2].map fun j => match s.vars j with | some v => owned s.heap v.kind v.val | none => [])
  | _ => none

/-- Non-vacuity of C112: a tidy program that uses both variables twice; in the end the second manager and the second error are live. -/
example : NFollows toyBuild [makeManager, badPath, .delete 1, badPath, .delete 0, makeManager] .start ∧
    Tidy toyBuild [makeManager, badPath, .delete 1, badPath, .delete 0, makeManager] .start ∧
    nsummary (NState.start.run toyBuild [makeManager, badPath, .delete 1, badPath, .delete 0, makeManager]) =
      some ([2, 3], [[3], [2], []]) :=
  ⟨nfollowsB_sound _ _ _ (by decide +kernel), tidyB_sound _ _ _ (by decide +kernel), by decide +kernel⟩

/-- ... and without the deletions the first ones stay live, though no variable is responsible for them, even if both are deleted in the
end. -/
example : NFollows toyBuild [makeManager, badPath, badPath, makeManager, .delete 0, .delete 1] .start ∧
    ¬ tidyB toyBuild [makeManager, badPath, badPath, makeManager, .delete 0, .delete 1] .start ∧
    nsummary (NState.start.run toyBuild [makeManager, badPath, badPath, makeManager, .delete 0, .delete 1]) =
      some ([0, 1], [[], [], []]) :=
  ⟨nfollowsB_sound _ _ _ (by decide +kernel), by decide +kernel, by decide +kernel⟩

/-- Non-vacuity of `C112_copies`: a copy of the first manager, though the variable holds a second one. -/
example : match NState.start.run toyBuild [makeManager, .delete 0, makeManager] with
    | .next n => delete toyBuild .manager (.to 0) n.heap = .ub ∧ (n.vars 0).map (·.handle (some .manager)) = some (.to 1)
    | _ => False :=
  ⟨rfl, rfl⟩

end KC.Props
