import Verif.Props.CReuse
/-
C115: the rule for C programs is exact, and what it costs.
-/
namespace KC.Props
open KC.C KC.Spec.C

/-- What the rule says about deleting a value. -/
def MayDelete (h : Heap) (v : Var) : Prop :=
  match v with
  | ⟨.text, p⟩ => isLive h p
  | ⟨.networks, n⟩ => n.count = 0 ∨ n.ptr = .null
  | _ => True

theorem delete_ub {W : Build} {h : Heap} {v : Var} (hh : (∃ c, Reads W h v.kind v.val c) ∨ Gone h v.kind v.val) (hn : ¬ MayDelete h v) :
    delete W v.kind v.val h = .ub := by
  obtain ⟨k, v⟩ := v
  cases k with
  | text =>
    rcases hh with ⟨c, -, i, rfl, hl⟩ | hg
    · refine absurd ?_ hn
      show isLive h (.to i) = true
      simp only [isLive]
      rw [show h[i]? = _ from hl]
      rfl
    · exact C52_text W h v (.inr hg)
  | networks =>
    rcases hh with ⟨c, hr⟩ | hg
    · refine C52_networks W h v c hr ?_
      rintro rfl
      exact hn (.inl hr.1)
    · exact absurd (.inr hg) hn
  | _ => exact absurd trivial hn

theorem not_allowed {W : Build} {s : State} (hs : Sound W s) {op : Op} (hn : ¬ Allowed s op) : s.step W op = .ub := by
  cases op with
  | call => exact absurd trivial hn
  | delete j =>
    cases hv : s.vars[j]? with
    | none => exact absurd (fun v h => by rw [hv] at h; cases h) hn
    | some v =>
      have : delete W v.kind v.val s.heap = .ub := by
        refine delete_ub (hs.held v (List.mem_of_getElem? hv)) fun hm => hn ?_
        intro w hw
        rw [hv] at hw
        cases hw
        exact hm
      simp only [State.step, hv, this]

theorem rule_exact {W : Build} (ops : List Op) {s : State} (hs : Sound W s) : s.run W ops ≠ .ub ↔ Follows W ops s := by
  refine ⟨?_, fun hf h => ?_⟩
  · induction ops generalizing s with
    | nil => exact fun _ => trivial
    | cons op ops ih =>
      intro h
      by_cases ha : Allowed s op
      · refine ⟨ha, fun s' hs' => ?_⟩
        simp only [State.run, hs'] at h
        rcases sound_step hs op ha with ⟨t, h1, h2⟩ | h1
        · rw [hs'] at h1; cases h1; exact ih h2 h
        · rw [hs'] at h1; cases h1
      · simp only [State.run, not_allowed hs ha] at h
        exact absurd rfl h
  · rcases sound_run ops hs hf with ⟨t, h1, -⟩ | h1
    · rw [h] at h1; cases h1
    · rw [h] at h1; cases h1

/-- C115: the rule of C52 is exact: a program has undefined behaviour just if it breaks it. -/
theorem C115_rule (W : Build) (ops : List Op) : State.run W ops ⟨[], []⟩ ≠ .ub ↔ Follows W ops ⟨[], []⟩ :=
  rule_exact ops (mirror_start W).2

theorem not_nallowed {W : Build} {n : NState} {s : State} {σ : Nat → Option Nat} (hm : Mirror n s σ) (hs : Sound W s) {op : NOp}
    (hn : ¬ NAllowed n op) : n.step W op = .ub := by
  cases op with
  | call => exact absurd trivial hn
  | delete j =>
    cases hv : n.vars j with
    | none => exact absurd (fun v h => by rw [hv] at h; cases h) hn
    | some v =>
      obtain ⟨i, -, hi⟩ := hm.set j v hv
      have : delete W v.kind v.val n.heap = .ub := by
        rw [hm.heap]
        refine delete_ub (hs.held v (List.mem_of_getElem? hi)) fun hmd => hn ?_
        intro w hw
        rw [hv] at hw
        cases hw
        rw [hm.heap]
        exact hmd
      simp only [NState.step, hv, this]

/-- C115: the same for programs that use their variables again. -/
theorem C115_rule_reuse (W : Build) (ops : List NOp) : NState.start.run W ops ≠ .ub ↔ NFollows W ops .start := by
  refine ⟨?_, fun hf => (C112_safe W ops hf).1⟩
  have key : ∀ (ops : List NOp) (n : NState) (s : State) (σ : Nat → Option Nat), Mirror n s σ → Sound W s → n.run W ops ≠ .ub →
      NFollows W ops n := by
    intro ops
    induction ops with
    | nil => exact fun _ _ _ _ _ _ => trivial
    | cons op ops ih =>
      intro n s σ hm hs h
      by_cases ha : NAllowed n op
      · refine ⟨ha, fun n' hn' => ?_⟩
        simp only [NState.run, hn'] at h
        rcases mirror_step hm hs op ha with ⟨n1, s1, σ1, h1, h2, h3, -⟩ | h1
        · rw [hn'] at h1; cases h1; exact ih n' s1 σ1 h2 h3 h
        · rw [hn'] at h1; cases h1
      · simp only [NState.run, not_nallowed hm hs ha] at h
        exact absurd rfl h
  exact key ops _ _ _ (mirror_start W).1 (mirror_start W).2

/-- C115: so a network list that is not empty cannot be given back: whatever the program does from then on, as long as it has no undefined
behaviour the list stays in memory. -/
theorem C115_networks (W : Build) (s : State) (hs : Sound W s) (j : Nat) (v : NetworksPtr) (hv : s.vars[j]? = some ⟨.networks, v⟩)
    (c : List Network) (hr : Reads W s.heap .networks v c) (hc : c ≠ []) (ops : List Op) (s' : State) (hrun : s.run W ops = .next s') :
    s'.vars[j]? = some ⟨.networks, v⟩ ∧ Reads W s'.heap .networks v c ∧ ∃ i, v.ptr = .to i ∧ s'.heap[i]?.join.isSome := by
  induction ops generalizing s with
  | nil =>
    cases hrun
    refine ⟨hv, hr, ?_⟩
    obtain ⟨-, ⟨h, -⟩ | ⟨-, i, h1, h2⟩⟩ := hr
    · exact absurd h hc
    · exact ⟨i, h1, by rw [show s'.heap[i]? = _ from h2]; rfl⟩
  | cons op ops ih =>
    have ha : Allowed s op := by
      by_contra hn
      simp only [State.run, not_allowed hs hn] at hrun
      cases hrun
    rcases sound_step hs op ha with ⟨t, h1, h2⟩ | h1
    · simp only [State.run, h1] at hrun
      have hsp : Spares j op := by
        cases op with
        | call => trivial
        | delete i =>
          rintro rfl
          have := ha _ hv
          rcases this with h | h
          · exact hc (List.length_eq_zero_iff.mp (hr.1.symm.trans h))
          · obtain ⟨-, ⟨-, h3⟩ | ⟨-, i, h3, -⟩⟩ := hr
            · rw [h] at h3; cases h3
            · rw [h] at h3; cases h3
      obtain ⟨k1, k2, -⟩ := C52_kept W s t hs op ha h1 j hsp _ hv
      obtain ⟨c', k3, k4⟩ := k2 c hr
      have k4 : c = c' := k4
      subst k4
      exact ih t h2 k1 k3 hrun
    · simp only [State.run, h1] at hrun
      cases hrun

def isUb : Step → Bool
  | .ub => true
  | _ => false

theorem isUb_eq {o : Step} (h : isUb o = true) : o = .ub := by
  cases o with
  | ub => rfl
  | _ => cases h

/-- A manager and a phrase, which is deleted. -/
def phraseOps : List Op := [.call .manager (.managerNew countingRng) toyCtx 0 .null ⟨.panic, .null⟩,
  .call .text (.generate .english) toyCtx 0 .null ⟨.panic, .null⟩, .delete 1]

/-- Non-vacuity: this follows the rule, and breaks it when the phrase is deleted again. -/
example : Follows toyBuild phraseOps ⟨[], []⟩ ∧ ¬ Follows toyBuild (phraseOps ++ [.delete 1]) ⟨[], []⟩ := by
  have h1 : isUb (State.run toyBuild (phraseOps ++ [.delete 1]) ⟨[], []⟩) = true := by decide +kernel
  have h2 := isUb_eq h1
  refine ⟨followsB_sound _ _ _ (by decide +kernel), ?_⟩
  rw [← C115_rule, not_not]
  exact h2

/-- A program that holds a list of two networks. -/
def listState : State := ⟨[some ⟨⟨8, 4⟩, .networks [⟨1⟩, ⟨2⟩]⟩], [⟨.networks, ⟨.to 0, 2⟩⟩]⟩

theorem listState_sound : Sound toyBuild listState := by
  refine ⟨fun v hv => ?_, List.nodup_singleton 0, fun i => ?_⟩
  · cases List.mem_singleton.mp hv
    exact .inl ⟨[1, 2], rfl, .inr ⟨nofun, 0, rfl, rfl⟩⟩
  · show _ ↔ i ∈ [0]
    rw [List.mem_singleton]
    cases i with
    | zero => exact ⟨fun _ => rfl, fun _ => rfl⟩
    | succ i => exact ⟨fun h => by simp [listState] at h, nofun⟩

/-- Non-vacuity of `C115_networks`: making and deleting a manager leaves the list; deleting the list is undefined. -/
example : (∃ s', listState.run toyBuild [.call .manager (.managerNew countingRng) toyCtx 0 .null ⟨.panic, .null⟩, .delete 1] = .next s' ∧
      Reads toyBuild s'.heap .networks ⟨.to 0, 2⟩ [1, 2]) ∧ listState.run toyBuild [.delete 0] = .ub := by
  refine ⟨⟨_, rfl, ?_⟩, by rfl⟩
  exact (C115_networks toyBuild listState listState_sound 0 ⟨.to 0, 2⟩ rfl [1, 2] ⟨rfl, .inr ⟨nofun, 0, rfl, rfl⟩⟩ nofun
    [.call .manager (.managerNew countingRng) toyCtx 0 .null ⟨.panic, .null⟩, .delete 1] _ rfl).2.1

end KC.Props
