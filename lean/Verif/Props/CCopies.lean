import Verif.Props.CMemory
/-
C113: copies of what was handed to C.
-/
namespace KC.Props
open KC.C KC.Spec.C

theorem at_dead {h : Heap} {i : Nat} (hi : h[i]? = some none) : h.at (.to i) = none := by simp [Heap.at, hi]

theorem dealloc_dead {ε : Type} {h : Heap} {i : Nat} (hi : h[i]? = some none) {l : Layout} (hl : l.size ≠ 0) :
    CM.dealloc (ε := ε) (.to i) l h = .ub := by
  unfold CM.dealloc
  rw [if_neg hl, at_dead hi]

theorem charFree_dead {h : Heap} {i : Nat} (hi : h[i]? = some none) : charFree (.to i) h = .ub := by
  unfold charFree
  rw [at_dead hi]

/-- C113: a value that was handed out and is responsible for memory; once that memory is freed, deleting the value as it was handed out
is undefined behaviour. -/
theorem C113_stale (W : Build) (h h' : Heap) (k : Kind) (v : Val k) (c : Content k) (hr : Reads W h k v c) (ho : owned h k v ≠ [])
    (hd : ∀ i ∈ owned h k v, h'[i]? = some none) : delete W k v h' = .ub := by
  cases k with
  | path => exact absurd rfl ho
  | bool => exact absurd rfl ho
  | text =>
    rw [owned_text hr] at hd
    obtain ⟨-, i, rfl, -⟩ := hr
    show (deleteString _ >>= fun _ => pure _) h' = _
    unfold deleteString
    rw [CM.bind_apply, CM.bind_apply, charFree_dead (hd i (List.mem_singleton.mpr rfl))]
  | data =>
    obtain ⟨h1, ⟨-, h2⟩ | ⟨h2, i, h3, -⟩⟩ := hr
    · exact absurd (by simp only [owned, h2]; rfl) ho
    · show DataPtr.free v h' = _
      have hi : h'[i]? = some none := hd i (by simp [owned, h3, ptrIds])
      unfold DataPtr.free
      rw [if_neg (by rw [h3]; nofun), h3, CM.bind_apply,
        dealloc_dead hi (by simp only [bytesLayout, h1]; exact fun h => h2 (List.length_eq_zero_iff.mp h))]
  | networks =>
    obtain ⟨h1, ⟨-, h2⟩ | ⟨h2, i, h3, -⟩⟩ := hr
    · exact absurd (by simp only [owned, h2]; rfl) ho
    · show NetworksPtr.free W v h' = _
      have hi : h'[i]? = some none := hd i (by simp [owned, h3, ptrIds])
      unfold NetworksPtr.free
      have hw := word_pos W
      have hc : c.length ≠ 0 := fun h => h2 (List.length_eq_zero_iff.mp h)
      rw [if_neg (by rw [h3]; nofun), h3, CM.bind_apply, dealloc_dead hi (by
        simp only [h1]; exact Nat.mul_ne_zero (by omega) hc)]
  | keychain =>
    obtain ⟨i, rfl, -⟩ := hr
    show deleteKeychain W _ h' = _
    unfold deleteKeychain
    rw [if_neg nofun, CM.bind_apply, dealloc_dead (hd i (List.mem_singleton.mpr rfl)) (Nat.ne_of_gt W.keychain_ok)]
  | manager =>
    obtain ⟨i, rfl, -⟩ := hr
    show deleteKeychainManager W _ h' = _
    unfold deleteKeychainManager
    rw [if_neg nofun, CM.bind_apply, dealloc_dead (hd i (List.mem_singleton.mpr rfl)) (Nat.ne_of_gt W.manager_ok)]
  | backup =>
    obtain ⟨h1, ⟨-, h2⟩ | ⟨h2, i, es, h3, h4, -⟩⟩ := hr
    · exact absurd (by simp only [owned, h2]) ho
    · have hi : h'[i]? = some none := hd i (by rw [owned_backup h3 h4]; simp)
      have hc : v.count ≠ 0 := by rw [h1]; exact fun h => h2 (List.length_eq_zero_iff.mp h)
      have hd : delete W .backup v = _ := (if_neg (by rw [h3]; nofun)).trans (if_neg hc)
      refine (congrFun hd h').trans ?_
      rw [h3, at_dead hi]
  | info =>
    obtain ⟨⟨-, i, h1, -⟩, -⟩ := hr
    show deleteMnemonicInfo v h' = _
    have hi : h'[i]? = some none := hd i (by simp [owned, h1, ptrIds])
    unfold deleteMnemonicInfo
    rw [if_neg (by rw [h1]; nofun), h1, CM.bind_apply, charFree_dead hi]
  | error =>
    obtain ⟨-, -, i, h1, -⟩ := hr
    show ErrorPtr.free v h' = _
    have hi : h'[i]? = some none := hd i (by simp [owned, h1, ptrIds])
    unfold ErrorPtr.free
    rw [if_neg (by rw [h1]; nofun), h1, CM.bind_apply, charFree_dead hi]

theorem respond_ub {α : Type} (x : Ctx) (body : CM Error α) (val : α) (err : ErrorPtr) {h : Heap} (hb : body h = .ub) :
    respond (handleExceptionResult x body) val err h = .ub := by
  unfold respond handleExceptionResult
  rw [hb]

theorem respond_ub' {α : Type} (x : Ctx) (body : CM Empty α) (val : α) (err : ErrorPtr) {h : Heap} (hb : body h = .ub) :
    respond (handleException x body) val err h = .ub := by
  unfold handleException respond handleExceptionResult
  beta_reduce
  rw [hb]

theorem onManager_dead {ε α : Type} (f : Manager → RM ε α) {h : Heap} {i : Nat} (hi : h[i]? = some none) :
    onManager (.to i) f h = .ub := by
  unfold onManager
  dsimp only
  rw [at_dead hi]

theorem keychainRef_dead {ε : Type} {h : Heap} {i : Nat} (hi : h[i]? = some none) : keychainRef (ε := ε) (.to i) h = .ub := by
  unfold keychainRef
  dsimp only
  rw [at_dead hi]

/-- C113: calling any function with a handle whose object is freed is undefined behaviour. -/
theorem C113_handle (W : Build) (x : Ctx) {k : Kind} (f : Fn k) (hf : f.handle ≠ none) (val : Val k) (err : ErrorPtr) (h : Heap) (i : Nat)
    (hi : h[i]? = some none) : f.call W x (.to i) val err h = .ub := by
  cases f with
  | networks => exact respond_ub' _ _ _ _ (by rw [CM.bind_apply, keychainRef_dead hi])
  | pubKey => exact respond_ub _ _ _ _ (by rw [CM.bind_apply, keychainRef_dead hi])
  | sign => exact respond_ub _ _ _ _ (by rw [CM.bind_apply, keychainRef_dead hi])
  | verify => exact respond_ub _ _ _ _ (by rw [CM.bind_apply, keychainRef_dead hi])
  | hasNetwork => exact respond_ub' _ _ _ _ (onManager_dead _ hi)
  | generate => exact respond_ub _ _ _ _ (by rw [CM.bind_apply, onManager_dead _ hi])
  | fromSeed => exact respond_ub _ _ _ _ (by rw [CM.bind_apply, onManager_dead _ hi])
  | fromMnemonic => exact respond_ub _ _ _ _ (by rw [CM.bind_apply, onManager_dead _ hi])
  | «open» => exact respond_ub _ _ _ _ (by rw [CM.bind_apply, onManager_dead _ hi])
  | add => exact respond_ub _ _ _ _ (by rw [CM.bind_apply, onManager_dead _ hi])
  | change => exact respond_ub _ _ _ _ (by rw [CM.bind_apply, onManager_dead _ hi])
  | keysData => exact respond_ub _ _ _ _ (by rw [CM.bind_apply, onManager_dead _ hi])
  | retrieve => exact respond_ub _ _ _ _ (by rw [CM.bind_apply, onManager_dead _ hi])
  | _ => exact absurd rfl hf

theorem dead_step {W : Build} {s s' : State} (hs : Sound W s) {op : Op} (ha : Allowed s op) (hst : s.step W op = .next s') {i : Nat}
    (hi : s.heap[i]? = some none) : s'.heap[i]? = some none := by
  cases op with
  | call k f x j val err =>
    rcases sound_call hs f x j val err with ⟨t, v, h1, -, -, hk⟩ | h
    · rw [hst] at h1; cases h1; exact hk.dead i hi
    · rw [hst] at h; cases h
  | delete j =>
    cases hv : s.vars[j]? with
    | none => simp only [State.step, hv] at hst; cases hst; exact hi
    | some v =>
      obtain ⟨t, h1, -, h3, -⟩ := sound_delete hs hv ha
      rw [hst] at h1; cases h1
      rw [h3]
      exact (Keeps.clear s.heap _).dead i hi

theorem dead_run {W : Build} (ops : List Op) {s s' : State} (hs : Sound W s) (hf : Follows W ops s) (hr : s.run W ops = .next s') {i : Nat}
    (hi : s.heap[i]? = some none) : s'.heap[i]? = some none := by
  induction ops generalizing s with
  | nil => cases hr; exact hi
  | cons op ops ih =>
    rcases sound_step hs op hf.1 with ⟨t, h1, h2⟩ | h
    · simp only [State.run, h1] at hr
      exact ih h2 (hf.2 t h1) hr (dead_step hs hf.1 h1 hi)
    · simp only [State.run, h] at hr; cases hr

/-- C113: the delete functions clear the caller's struct, and that alone: of a value that holds memory, deleting any copy made before is
undefined behaviour, at once and at any later time, and so is calling any function with a copy of a handle. -/
theorem C113_copies (W : Build) (s : State) (hs : Sound W s) (j : Nat) (v : Var) (hv : s.vars[j]? = some v) (c : Content v.kind)
    (hc : Reads W s.heap v.kind v.val c) (ho : owned s.heap v.kind v.val ≠ []) (ops : List Op) (hf : Follows W (.delete j :: ops) s)
    (s' : State) (hr : s.run W (.delete j :: ops) = .next s') :
    delete W v.kind v.val s'.heap = .ub ∧
    ∀ (k : Kind) (f : Fn k) (x : Ctx) (val : Val k) (err : ErrorPtr), f.handle = some v.kind →
      f.call W x (v.handle (some v.kind)) val err s'.heap = .ub := by
  obtain ⟨t, v', h1, -, -, h2, -⟩ := C52_delete W s hs j v hv hf.1
  rcases sound_step hs (.delete j) hf.1 with ⟨t', g1, g2⟩ | h
  · rw [h1] at g1
    cases g1
    simp only [State.run, h1] at hr
    have dead : ∀ i ∈ owned s.heap v.kind v.val, s'.heap[i]? = some none :=
      fun i hi => dead_run ops g2 (hf.2 t h1) hr (h2 i hi)
    refine ⟨C113_stale W s.heap s'.heap v.kind v.val c hc ho dead, fun k f x val err hk => ?_⟩
    obtain ⟨kv, v⟩ := v
    cases kv with
    | keychain =>
      obtain ⟨i, h3, -⟩ := hc
      subst h3
      exact C113_handle W x f (by rw [hk]; nofun) val err _ i (dead i (List.mem_singleton.mpr rfl))
    | manager =>
      obtain ⟨i, h3, -⟩ := hc
      subst h3
      exact C113_handle W x f (by rw [hk]; nofun) val err _ i (dead i (List.mem_singleton.mpr rfl))
    | _ => cases f <;> cases hk
  · rw [h1] at h; cases h

/-- Non-vacuity: a manager is made and deleted; using or deleting a copy of its handle is undefined. -/
example : ∃ s s' p, State.run toyBuild [.call .manager (.managerNew countingRng) toyCtx 0 .null ⟨.panic, .null⟩] ⟨[], []⟩ = .next s ∧
    s.vars[0]? = some ⟨.manager, p⟩ ∧ s.run toyBuild [.delete 0] = .next s' ∧ delete toyBuild .manager p s'.heap = .ub ∧
    (Fn.hasNetwork ⟨1⟩).call toyBuild toyCtx p false ⟨.panic, .null⟩ s'.heap = .ub :=
  ⟨_, _, .to 0, rfl, rfl, rfl, rfl, rfl⟩

end KC.Props
