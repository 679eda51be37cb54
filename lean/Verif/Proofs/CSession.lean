import Verif.Props.CMemory
/-
Where the handles of a C program come from.
-/
namespace KC.C
open KC.Spec.C KC.Props

/-- What C reads at a manager or keychain handle is one thing. -/
theorem reads_manager_inj {W : Build} {h : Heap} {v : Ptr} {c c' : Manager × Rng} (a : Reads W h .manager v c) (b : Reads W h .manager v c') :
    c = c' := by
  obtain ⟨i, rfl, hi⟩ := a
  obtain ⟨j, e, hj⟩ := b
  cases e
  have e := Option.some.inj (Option.some.inj (hi.symm.trans hj))
  have := (Block.mk.inj e).2
  injection this with e1 e2
  exact Prod.ext e1 e2

theorem reads_keychain_inj {W : Build} {h : Heap} {v : Ptr} {c c' : Keychain} (a : Reads W h .keychain v c) (b : Reads W h .keychain v c') :
    c = c' := by
  obtain ⟨i, rfl, hi⟩ := a
  obtain ⟨j, e, hj⟩ := b
  cases e
  have e := Option.some.inj (Option.some.inj (hi.symm.trans hj))
  have := (Block.mk.inj e).2
  injection this

/-- A step that does not unwind gives a new variable: the library's result or an error. -/
theorem step_new {W : Build} {s s' : State} {k : Kind} {f : Fn k} {x : Ctx} {j : Nat} {val : Val k} {err : ErrorPtr} {t : Target}
    (ht : Names W s.heap (s.handle f.handle j) f.handle t) (hst : s.step W (.call k f x j val err) = .next s') :
    (∃ c v, s'.vars = s.vars ++ [⟨k, v⟩] ∧ ((f.lib W x t).run t.rng).1 = .ok c ∧ Reads W s'.heap k v c) ∨
    ∃ e ty txt, s'.vars = s.vars ++ [⟨.error, e⟩] ∧ Reads W s'.heap .error e (ty, txt) := by
  have hE := call_ends x val err ht
  simp only [State.step] at hst
  generalize f.call W x (s.handle f.handle j) val err s.heap = out at hE hst
  cases hE with
  | good c v new h1 h2 h3 h4 h5 => cases hst; exact .inl ⟨c, v, rfl, h1, h3⟩
  | bad e ty txt b h1 h2 h3 => cases hst; exact .inr ⟨e, ty, txt, rfl, h1⟩
  | unwind h1 => cases hst

/-- A library call with a result that C text can carry. -/
theorem step_good {W : Build} {s : State} {k : Kind} {f : Fn k} (x : Ctx) {j : Nat} (val : Val k) (err : ErrorPtr) {t : Target}
    (ht : Names W s.heap (s.handle f.handle j) f.handle t) {c : Content k} (hl : ((f.lib W x t).run t.rng).1 = .ok c) (hf : Fits k c) :
    ∃ s' v, s.step W (.call k f x j val err) = .next s' ∧ s'.vars = s.vars ++ [⟨k, v⟩] ∧ Reads W s'.heap k v c := by
  obtain ⟨v, h', h1, h2⟩ := (C49_outcome W x _ f val err s.heap t ht).1 c hl hf
  exact ⟨⟨h', s.vars ++ [⟨k, v⟩]⟩, v, by simp only [State.step, h1], rfl, h2⟩

/-- The handle in a manager variable. -/
theorem names_manager {W : Build} {s : State} {j : Nat} {p : Ptr} {c : Manager × Rng} (hv : s.vars[j]? = some ⟨.manager, p⟩)
    (hr : Reads W s.heap .manager p c) {k : Kind} (f : Fn k) (hf : f.handle = some .manager) :
    Names W s.heap (s.handle f.handle j) f.handle (.manager c.1 c.2) := by
  rw [hf]
  obtain ⟨i, rfl, hi⟩ := hr
  have : s.handle (some .manager) j = .to i := by simp only [State.handle, hv, Var.handle, if_pos]
  rw [this]
  exact .manager i _ _ rfl hi

theorem names_keychain {W : Build} {s : State} {j : Nat} {p : Ptr} {c : Keychain} (hv : s.vars[j]? = some ⟨.keychain, p⟩)
    (hr : Reads W s.heap .keychain p c) {k : Kind} (f : Fn k) (hf : f.handle = some .keychain) :
    Names W s.heap (s.handle f.handle j) f.handle (.keychain c) := by
  rw [hf]
  obtain ⟨i, rfl, hi⟩ := hr
  have : s.handle (some .keychain) j = .to i := by simp only [State.handle, hv, Var.handle, if_pos]
  rw [this]
  exact .keychain i _ rfl hi

/-- What a handle stands for, in terms of the variable. -/
theorem names_var {W : Build} {s : State} {j : Nat} {o : Option Kind} {t : Target} (h : Names W s.heap (s.handle o j) o t) :
    (∀ kc, t = .keychain kc → ∃ p, s.vars[j]? = some ⟨.keychain, p⟩ ∧ Reads W s.heap .keychain p kc) ∧
    ∀ m r, t = .manager m r → ∃ p, s.vars[j]? = some ⟨.manager, p⟩ ∧ Reads W s.heap .manager p (m, r) := by
  cases h with
  | no => exact ⟨nofun, nofun⟩
  | null k hp => exact ⟨nofun, nofun⟩
  | keychain i kc hp hl =>
    refine ⟨fun kc' e => ?_, nofun⟩
    cases e
    unfold State.handle at hp
    cases hv : s.vars[j]? with
    | none => rw [hv] at hp; cases hp
    | some v =>
      rw [hv] at hp
      obtain ⟨kv, p⟩ := v
      cases kv with
      | keychain => exact ⟨p, rfl, i, hp, hl⟩
      | _ => cases hp
  | manager i m r hp hl =>
    refine ⟨nofun, fun m' r' e => ?_⟩
    cases e
    unfold State.handle at hp
    cases hv : s.vars[j]? with
    | none => rw [hv] at hp; cases hp
    | some v =>
      rw [hv] at hp
      obtain ⟨kv, p⟩ := v
      cases kv with
      | manager => exact ⟨p, rfl, i, hp, hl⟩
      | _ => cases hp

end KC.C
