import Verif.Spec.Concurrent
import Verif.Props.Archive
import Verif.Props.Panics
/-
C88: threads that share managers do not disturb each other.
-/
namespace KC.Props
open KC.Manager KC.Spec KC.Spec.Wallet KC.Spec.Crypt KC.Crypt KC.Spec.Conc KC.Spec.Archive
open KC.Mnemonic (Language)
open KC.Real.Secp256k1 (curve)

/-- The program makes these draws and then fails to make the next one. -/
def Stuck (stream : Nat → UInt8) (p : RM Error Out) (ds : List Draw) : Prop := ∃ n k, RM.Follows stream p ds (.draw n k)

structure ConcInv (E : Env) (M : Nat → Manager) (src : Nat → Rng) (s : State) : Prop where
  stream : ∀ m, (s.src m).stream = (src m).stream
  fails : ∀ m, (s.src m).fails = (src m).fails
  clean : ∀ m, (src m).poisoned = false → (∀ k, (src m).fails k = false) → (s.src m).poisoned = false
  posLe : ∀ m, (src m).pos ≤ (s.src m).pos
  above : ∀ d ∈ s.draws, (src d.1).pos ≤ d.2.pos ∧ d.2.pos + d.2.len ≤ (s.src d.1).pos
  disj : s.draws.Pairwise fun d e => d.1 = e.1 → d.2.pos + d.2.len ≤ e.2.pos
  old : ∀ d ∈ s.draws, d.2.op < s.next
  busy : ∀ t x, s.busy t = some x → x.id < s.next ∧ RM.Follows (src x.mgr).stream (x.call.prog E (M x.mgr)) (s.drawsOf x.id) x.todo ∧
    (∀ d ∈ s.draws, d.2.op = x.id → d.1 = x.mgr) ∧ (∀ e ∈ s.done, e.id ≠ x.id) ∧ ∀ u y, s.busy u = some y → y.id = x.id → u = t
  done : ∀ e ∈ s.done, e.id < s.next ∧ (∀ d ∈ s.draws, d.2.op = e.id → d.1 = e.mgr) ∧
    (RM.Follows (src e.mgr).stream (e.call.prog E (M e.mgr)) (s.drawsOf e.id) (.ret e.res) ∨
     e.res = .panic ∧ Stuck (src e.mgr).stream (e.call.prog E (M e.mgr)) (s.drawsOf e.id) ∧
      ¬ ((src e.mgr).poisoned = false ∧ ∀ k, (src e.mgr).fails k = false))
  once : (s.done.map Entry.id).Nodup

theorem upd_same {α : Type} (f : Nat → α) (t : Nat) (x : α) : upd f t x t = x := if_pos rfl
theorem upd_other {α : Type} (f : Nat → α) {t u : Nat} (x : α) (h : u ≠ t) : upd f t x u = f u := if_neg h

theorem drawsOf_append (s : State) (m : Nat) (d : Draw) (i : Nat) (src busy next done) :
    State.drawsOf ⟨src, busy, next, done, s.draws ++ [(m, d)]⟩ i = if d.op = i then s.drawsOf i ++ [d] else s.drawsOf i := by
  by_cases h : d.op = i <;> simp [State.drawsOf, List.filter_append, h]

theorem drawsOf_new {s : State} (h : ∀ d ∈ s.draws, d.2.op < s.next) : s.drawsOf s.next = [] := by
  simp only [State.drawsOf, List.map_eq_nil_iff, List.filter_eq_nil_iff]
  intro d hd hc
  have := h d hd
  simp only [decide_eq_true_eq] at hc
  omega

theorem conc_init (E : Env) (M : Nat → Manager) (src : Nat → Rng) : ConcInv E M src (init src) := by
  constructor <;> simp +contextual [init]

theorem fill_none {r r' : Rng} {n : Nat} (h : r.fill n = (none, r')) :
    r'.stream = r.stream ∧ r'.pos = r.pos ∧ r'.fails = r.fails ∧ (r.poisoned = true ∨ ∃ k, r.fails k = true) := by
  unfold Rng.fill at h
  split at h
  · cases h; exact ⟨rfl, rfl, rfl, .inl ‹_›⟩
  · split at h
    · cases h; exact ⟨rfl, rfl, rfl, .inr ⟨_, ‹_›⟩⟩
    · cases h

theorem conc_step {E : Env} {M : Nat → Manager} {src : Nat → Rng} {t : Nat} {s s' : State} (h : ConcInv E M src s) (hs : Step E M t s s') :
    ConcInv E M src s' := by
  cases hs with
  | begin m c ht =>
    have hne : ∀ {u x}, s.busy u = some x → u ≠ t := by rintro u x hu rfl; rw [ht] at hu; cases hu
    refine ⟨h.stream, h.fails, h.clean, h.posLe, h.above, h.disj, fun d hd => Nat.lt_succ_of_lt (h.old d hd), ?_, ?_, h.once⟩
    · intro u x hu
      by_cases hut : u = t
      · subst hut
        simp only [upd_same, Option.some.injEq] at hu
        subst hu
        refine ⟨Nat.lt_succ_self _, ?_, ?_, ?_, ?_⟩
        · show RM.Follows _ _ (s.drawsOf s.next) _
          rw [drawsOf_new h.old]
          exact .nil _
        · intro d hd he
          have := h.old d hd
          simp only at he; omega
        · intro e he hc
          have := (h.done e he).1
          simp only at hc; omega
        · intro v y hv hy
          by_contra hvu
          simp only [upd_other _ _ hvu] at hv
          have := (h.busy v y hv).1
          simp only at hy; omega
      · simp only [upd_other _ _ hut] at hu
        obtain ⟨a1, a2, a3, a4, a5⟩ := h.busy u x hu
        refine ⟨Nat.lt_succ_of_lt a1, a2, a3, a4, fun v y hv hy => ?_⟩
        by_cases hvt : v = t
        · subst hvt
          simp only [upd_same, Option.some.injEq] at hv
          subst hv
          simp only at hy; omega
        · simp only [upd_other _ _ hvt] at hv
          exact a5 v y hv hy
    · intro e he
      obtain ⟨a1, a2, a3⟩ := h.done e he
      exact ⟨Nat.lt_succ_of_lt a1, a2, a3⟩
  | draw i m c n k b r ht hf =>
    obtain ⟨hp, hfa, rfl, rfl⟩ := fill_ok hf
    obtain ⟨b1, b2, b3, b4, b5⟩ := h.busy t _ ht
    have hst := h.stream m
    refine ⟨?_, ?_, ?_, ?_, ?_, ?_, ?_, ?_, ?_, h.once⟩
    · intro m'
      by_cases hm : m' = m
      · subst hm; simp only [upd_same]; exact hst
      · simp only [upd_other _ _ hm]; exact h.stream m'
    · intro m'
      by_cases hm : m' = m
      · subst hm; simp only [upd_same]; exact h.fails _
      · simp only [upd_other _ _ hm]; exact h.fails m'
    · intro m' q1 q2
      by_cases hm : m' = m
      · subst hm; simp only [upd_same]; exact h.clean _ q1 q2
      · simp only [upd_other _ _ hm]; exact h.clean m' q1 q2
    · intro m'
      by_cases hm : m' = m
      · subst hm; simp only [upd_same]; exact (h.posLe _).trans (Nat.le_add_right _ _)
      · simp only [upd_other _ _ hm]; exact h.posLe m'
    · intro d hd
      rw [List.mem_append, List.mem_singleton] at hd
      rcases hd with hd | rfl
      · obtain ⟨a1, a2⟩ := h.above d hd
        refine ⟨a1, ?_⟩
        by_cases hm : d.1 = m
        · simp only [hm, upd_same]; rw [hm] at a2; exact a2.trans (Nat.le_add_right _ _)
        · simp only [upd_other _ _ hm]; exact a2
      · simp only [upd_same]
        exact ⟨h.posLe m, Nat.le_refl _⟩
    · rw [List.pairwise_append]
      refine ⟨h.disj, List.pairwise_singleton _ _, fun d hd e he hde => ?_⟩
      rw [List.mem_singleton] at he
      subst he
      have := (h.above d hd).2
      rw [hde] at this
      exact this
    · intro d hd
      rw [List.mem_append, List.mem_singleton] at hd
      rcases hd with hd | rfl
      · exact h.old d hd
      · exact b1
    · intro u x hu
      by_cases hut : u = t
      · subst hut
        simp only [upd_same, Option.some.injEq] at hu
        subst hu
        refine ⟨b1, ?_, ?_, b4, ?_⟩
        · rw [drawsOf_append, if_pos rfl]
          simp only at b2 ⊢
          rw [hst]
          exact RM.follows_snoc b2 n k rfl _ rfl
        · intro d hd he
          rw [List.mem_append, List.mem_singleton] at hd
          rcases hd with hd | rfl
          · exact b3 d hd he
          · rfl
        · intro v y hv hy
          by_contra hvu
          simp only [upd_other _ _ hvu] at hv
          exact hvu (b5 v y hv hy)
      · simp only [upd_other _ _ hut] at hu
        obtain ⟨a1, a2, a3, a4, a5⟩ := h.busy u x hu
        have hid : i ≠ x.id := fun hc => hut (b5 u x hu hc.symm)
        refine ⟨a1, ?_, ?_, a4, fun v y hv hy => ?_⟩
        · rw [drawsOf_append, if_neg hid]; exact a2
        · intro d hd he
          rw [List.mem_append, List.mem_singleton] at hd
          rcases hd with hd | rfl
          · exact a3 d hd he
          · exact absurd he hid
        · by_cases hvt : v = t
          · subst hvt
            simp only [upd_same, Option.some.injEq] at hv
            subst hv
            exact absurd hy hid
          · simp only [upd_other _ _ hvt] at hv
            exact a5 v y hv hy
    · intro e he
      obtain ⟨a1, a2, a3⟩ := h.done e he
      have hid : i ≠ e.id := fun hc => b4 e he hc.symm
      refine ⟨a1, ?_, ?_⟩
      · intro d hd hde
        rw [List.mem_append, List.mem_singleton] at hd
        rcases hd with hd | rfl
        · exact a2 d hd hde
        · exact absurd hde hid
      · rw [drawsOf_append, if_neg hid]; exact a3
  | fail i m c n k r ht hf =>
    obtain ⟨e1, e2, e3, e4⟩ := fill_none hf
    obtain ⟨b1, b2, b3, b4, b5⟩ := h.busy t _ ht
    have hbad : ¬ ((src m).poisoned = false ∧ ∀ k, (src m).fails k = false) := by
      rintro ⟨q1, q2⟩
      rcases e4 with e4 | ⟨k, e4⟩
      · rw [h.clean m q1 q2] at e4; cases e4
      · rw [h.fails m, q2 k] at e4; cases e4
    refine ⟨?_, ?_, ?_, ?_, ?_, h.disj, h.old, ?_, ?_, ?_⟩
    · intro m'
      by_cases hm : m' = m
      · subst hm; simp only [upd_same, e1]; exact h.stream _
      · simp only [upd_other _ _ hm]; exact h.stream m'
    · intro m'
      by_cases hm : m' = m
      · subst hm; simp only [upd_same, e3]; exact h.fails _
      · simp only [upd_other _ _ hm]; exact h.fails m'
    · intro m' q1 q2
      by_cases hm : m' = m
      · subst hm; exact absurd ⟨q1, q2⟩ hbad
      · simp only [upd_other _ _ hm]; exact h.clean m' q1 q2
    · intro m'
      by_cases hm : m' = m
      · subst hm; simp only [upd_same, e2]; exact h.posLe _
      · simp only [upd_other _ _ hm]; exact h.posLe m'
    · intro d hd
      obtain ⟨a1, a2⟩ := h.above d hd
      refine ⟨a1, ?_⟩
      by_cases hm : d.1 = m
      · simp only [hm, upd_same, e2]; rw [hm] at a2; exact a2
      · simp only [upd_other _ _ hm]; exact a2
    · intro u x hu
      by_cases hut : u = t
      · subst hut; simp only [upd_same] at hu; cases hu
      · simp only [upd_other _ _ hut] at hu
        obtain ⟨a1, a2, a3, a4, a5⟩ := h.busy u x hu
        refine ⟨a1, a2, a3, ?_, fun v y hv hy => ?_⟩
        · intro e he
          rw [List.mem_append, List.mem_singleton] at he
          rcases he with he | rfl
          · exact a4 e he
          · exact fun hc => hut (b5 u x hu hc.symm)
        · by_cases hvt : v = t
          · subst hvt; simp only [upd_same] at hv; cases hv
          · simp only [upd_other _ _ hvt] at hv
            exact a5 v y hv hy
    · intro e he
      rw [List.mem_append, List.mem_singleton] at he
      rcases he with he | rfl
      · exact h.done e he
      · exact ⟨b1, b3, .inr ⟨rfl, ⟨n, k, b2⟩, hbad⟩⟩
    · rw [List.map_append, List.map_singleton, List.nodup_append]
      refine ⟨h.once, List.nodup_singleton _, fun a ha b hb => ?_⟩
      rw [List.mem_singleton] at hb
      subst hb
      obtain ⟨e, he, rfl⟩ := List.mem_map.mp ha
      exact b4 e he
  | finish i m c x ht =>
    obtain ⟨b1, b2, b3, b4, b5⟩ := h.busy t _ ht
    refine ⟨h.stream, h.fails, h.clean, h.posLe, h.above, h.disj, h.old, ?_, ?_, ?_⟩
    · intro u x hu
      by_cases hut : u = t
      · subst hut; simp only [upd_same] at hu; cases hu
      · simp only [upd_other _ _ hut] at hu
        obtain ⟨a1, a2, a3, a4, a5⟩ := h.busy u x hu
        refine ⟨a1, a2, a3, ?_, fun v y hv hy => ?_⟩
        · intro e he
          rw [List.mem_append, List.mem_singleton] at he
          rcases he with he | rfl
          · exact a4 e he
          · exact fun hc => hut (b5 u x hu hc.symm)
        · by_cases hvt : v = t
          · subst hvt; simp only [upd_same] at hv; cases hv
          · simp only [upd_other _ _ hvt] at hv
            exact a5 v y hv hy
    · intro e he
      rw [List.mem_append, List.mem_singleton] at he
      rcases he with he | rfl
      · exact h.done e he
      · exact ⟨b1, b3, .inl b2⟩
    · rw [List.map_append, List.map_singleton, List.nodup_append]
      refine ⟨h.once, List.nodup_singleton _, fun a ha b hb => ?_⟩
      rw [List.mem_singleton] at hb
      subst hb
      obtain ⟨e, he, rfl⟩ := List.mem_map.mp ha
      exact b4 e he

theorem conc_inv {E : Env} {M : Nat → Manager} {src : Nat → Rng} {s : State} (h : Reach E M src s) : ConcInv E M src s := by
  induction h with
  | init => exact conc_init E M src
  | step t s s' _ hs ih => exact conc_step ih hs

/-- The bytes of draws, one after the other. -/
def drawn (stream : Nat → UInt8) (ds : List Draw) : Bytes := ds.flatMap fun d => seg stream d.pos d.len

theorem run_follows {stream : Nat → UInt8} {p q : RM Error Out} {ds : List Draw} (h : RM.Follows stream p ds q) (r : Rng) (h0 : r.poisoned = false)
    (h1 : ∀ k, k < ds.length → r.fails (r.calls + k) = false) (h2 : ∀ i, i < (drawn stream ds).length → r.stream (r.pos + i) = (drawn stream ds).getD i 0) :
    p.run r = q.run { r with pos := r.pos + (drawn stream ds).length, calls := r.calls + ds.length } := by
  induction h generalizing r with
  | nil p => simp [drawn]
  | cons n k d ds q he _ ih =>
    have hl : (seg stream d.pos d.len).length = n := by rw [seg_length, he]
    have e : drawn stream (d :: ds) = seg stream d.pos d.len ++ drawn stream ds := by simp [drawn]
    rw [e] at h2
    rw [RM.run, fill_healthy n h0 (by simpa using h1 0 (by simp))]
    have hseg : (List.range n).map (fun i => r.stream (r.pos + i)) = seg stream d.pos n := by
      apply List.ext_getElem
      · simp
      · intro i a1 a2
        have hi : i < n := by simpa using a1
        have := h2 i (by rw [List.length_append, hl]; omega)
        rw [List.getD_append _ _ _ _ (by rw [hl]; exact hi), List.getD_eq_getElem _ _ (by rw [hl]; exact hi)] at this
        simp only [List.getElem_map, List.getElem_range, this, he]
    have hseg' : seg r.stream r.pos n = seg stream d.pos n := hseg
    dsimp only
    rw [hseg', ih { r with pos := r.pos + n, calls := r.calls + 1 } h0]
    · congr 1
      rw [e, List.length_append, hl, List.length_cons]
      simp only [Rng.mk.injEq, true_and, and_true]
      omega
    · intro k hk
      have := h1 (k + 1) (by rw [List.length_cons]; omega)
      show r.fails (r.calls + 1 + k) = false
      rw [Nat.add_assoc, Nat.add_comm 1 k]
      exact this
    · intro i hi
      have := h2 (n + i) (by rw [List.length_append, hl]; omega)
      rw [List.getD_append_right _ _ _ _ (by rw [hl]; omega), hl, Nat.add_sub_cancel_left] at this
      show r.stream (r.pos + n + i) = _
      rw [Nat.add_assoc]
      exact this

/-- C88: whatever other threads do, a finished call has a result that it could have alone on its manager; alone with a source that never
fails, unless the manager's source failed or was poisoned before. -/
theorem C88_alone (E : Env) (M : Nat → Manager) (src : Nat → Rng) (s : State) (h : Reach E M src s) (e : Entry) (he : e ∈ s.done) :
    ∃ r, r.poisoned = false ∧ ((e.call.prog E (M e.mgr)).run r).1 = e.res ∧
      ((src e.mgr).poisoned = false → (∀ k, (src e.mgr).fails k = false) → ∀ k, r.fails k = false) := by
  obtain ⟨-, -, hd⟩ := (conc_inv h).done e he
  rcases hd with hf | ⟨hp, ⟨n, k, hf⟩, hbad⟩
  · refine ⟨⟨fun i => (drawn (src e.mgr).stream (s.drawsOf e.id)).getD i 0, fun _ => false, 0, 0, false⟩, rfl, ?_, fun _ _ _ => rfl⟩
    rw [run_follows hf _ rfl (fun _ _ => rfl) (fun i _ => by simp only [Nat.zero_add])]
    rfl
  · refine ⟨⟨fun i => (drawn (src e.mgr).stream (s.drawsOf e.id)).getD i 0, fun k => k = (s.drawsOf e.id).length, 0, 0, false⟩, rfl, ?_,
      fun q1 q2 => absurd ⟨q1, q2⟩ hbad⟩
    rw [run_follows hf _ rfl (fun k hk => by simp only [Nat.zero_add, decide_eq_false_iff_not]; omega) (fun i _ => by simp only [Nat.zero_add]), hp]
    simp only [RM.run, Rng.fill, Nat.zero_add, decide_true, if_true, Bool.false_eq_true, if_false]

/-- C88: if the sources never fail, no call panics on managers of the built-in networks. -/
theorem C88_no_panic (H : Hashes) (C : Secp.Curve) (Ed : Cardano.Ed) (E : Env) (M : Nat → Manager) (hM : ∀ m, BuiltIn H C Ed (M m)) (src : Nat → Rng)
    (h0 : ∀ m, (src m).poisoned = false ∧ ∀ k, (src m).fails k = false) (s : State) (h : Reach E M src s) (e : Entry) (he : e ∈ s.done) :
    e.res ≠ .panic := by
  obtain ⟨r, hr, hrun, hq⟩ := C88_alone E M src s h e he
  have hq := hq (h0 _).1 (h0 _).2
  have hd : Delivers r := ⟨hr, hq _, hq _⟩
  have map : ∀ {α} (f : α → Out) (x : RM Error α), (x.run r).1 ≠ .panic → ((RM.mapOk f x).run r).1 ≠ .panic := by
    intro α f x hx
    rw [RM.mapOk, RM.run_bind]
    rcases hy : x.run r with ⟨y, r'⟩
    rw [hy] at hx
    cases y with
    | ok a => nofun
    | err e => nofun
    | panic => exact absurd rfl hx
  rw [← hrun]
  cases e.call with
  | generate l =>
    refine map _ _ ?_
    by_cases hs : (M e.mgr).seedSize ∈ [96, 128, 160, 192, 224, 256]
    · obtain ⟨_, _, h⟩ := C56_succeeds E (M e.mgr) l r hd hs
      rw [h]; nofun
    · rw [C56_other_sizes E (M e.mgr) l r hs]; nofun
  | fromSeed itF itK sd p => exact map _ _ (new_panic (hM _) _ _ _ _ _ _ hd)
  | fromMnemonic itF itK t p l => exact map _ _ (new_panic (hM _) _ _ _ _ _ _ hd)
  | change b o n => exact map _ _ (change_panic _ _ _ _ hd)
  | add it b p n => exact map _ _ (add_panic (hM _) _ _ _ _ hd)

/-- C88: no deadlock, and no waiting for others: a thread in a call can always go on, and it ends the call after at most two draws. -/
theorem C88_progress (E : Env) (M : Nat → Manager) (src : Nat → Rng) (s : State) (h : Reach E M src s) (t : Nat) (x : Busy) (hx : s.busy t = some x) :
    (∃ s', Step E M t s s' ∧ (s'.busy t = none ∨ (s'.drawsOf x.id).length = (s.drawsOf x.id).length + 1)) ∧ (s.drawsOf x.id).length ≤ 2 ∧
    ((s.drawsOf x.id).length = 2 → ∃ y, x.todo = .ret y) := by
  obtain ⟨-, hf, -⟩ := (conc_inv h).busy t x hx
  constructor
  · obtain ⟨i, m, c, todo⟩ := x
    cases todo with
    | ret y => exact ⟨_, .finish s i m c y hx, .inl (upd_same ..)⟩
    | draw n k =>
      rcases hy : (s.src m).fill n with ⟨_ | b, r⟩
      · exact ⟨_, .fail s i m c n k r hx hy, .inl (upd_same ..)⟩
      · refine ⟨_, .draw s i m c n k b r hx hy, .inr ?_⟩
        rw [drawsOf_append, if_pos rfl, List.length_append]
        rfl
  · generalize s.drawsOf x.id = ds at hf
    generalize x.todo = q at hf
    rcases call_shape E (M x.mgr) x.call with ⟨y, hy, -⟩ | ⟨data, pw, -, hy⟩ | ⟨l, -, k, hy, hk⟩
    · rw [hy] at hf
      cases hf
      exact ⟨by simp, nofun⟩
    · rw [hy, encrypt_eq] at hf
      unfold RM.mapOk at hf
      cases hf with
      | nil => exact ⟨by simp, nofun⟩
      | cons n k d ds q h1 hf =>
      cases hf with
      | nil => exact ⟨by simp, nofun⟩
      | cons n k e ds q h2 hf =>
      cases hf with
      | nil => exact ⟨by simp, fun _ => ⟨_, rfl⟩⟩
    · rw [hy] at hf
      cases hf with
      | nil => exact ⟨by simp, nofun⟩
      | cons n k d ds q h1 hf =>
      obtain ⟨text, -, e2⟩ := hk (seg (src x.mgr).stream d.pos ((M x.mgr).seedSize / 8)) (by simp)
      rw [e2] at hf
      cases hf with
      | nil => exact ⟨by simp, nofun⟩

/-- C88: no byte of a source is drawn twice. -/
theorem C88_disjoint (E : Env) (M : Nat → Manager) (src : Nat → Rng) (s : State) (h : Reach E M src s) :
    s.draws.Pairwise fun d e => d.1 = e.1 → d.2.pos + d.2.len ≤ e.2.pos := (conc_inv h).disj

/-- C88: salt and nonce of a wallet, and the entropy of a phrase, are what the call drew from the source of its manager. -/
theorem C88_randomness (E : Env) (M : Nat → Manager) (src : Nat → Rng) (s : State) (h : Reach E M src s) (e : Entry) (he : e ∈ s.done) :
    (∀ b, e.res = .ok (.blob b) → ∃ t t' p q tag ct, s.draws.filter (fun d => d.2.op = e.id) = [(e.mgr, ⟨t, e.id, p, 32⟩), (e.mgr, ⟨t', e.id, q, 12⟩)] ∧
      Parts b (seg (src e.mgr).stream p 32) (seg (src e.mgr).stream q 12) tag ct) ∧
    (∀ text, e.res = .ok (.text text) → ∃ t p l m,
      s.draws.filter (fun d => d.2.op = e.id) = [(e.mgr, ⟨t, e.id, p, (M e.mgr).seedSize / 8⟩)] ∧
      Bip39.Mnemonics.fromString (Language.toDict l) text = .ok m ∧ Carries E.H.sha256 m.idx (seg (src e.mgr).stream p ((M e.mgr).seedSize / 8))) := by
  obtain ⟨-, hm, hd⟩ := (conc_inv h).done e he
  have hm' : ∀ d ∈ s.draws.filter (fun d => d.2.op = e.id), d.1 = e.mgr ∧ d.2.op = e.id := by
    intro d hd
    obtain ⟨h1, h2⟩ := List.mem_filter.mp hd
    have h2 : d.2.op = e.id := by simpa using h2
    exact ⟨hm d h1 h2, h2⟩
  have hf : ∀ o, e.res = .ok o → RM.Follows (src e.mgr).stream (e.call.prog E (M e.mgr)) (s.drawsOf e.id) (.ret (.ok o)) := by
    intro o ho
    rcases hd with hd | ⟨hd, -⟩
    · rw [← ho]; exact hd
    · rw [ho] at hd; cases hd
  unfold State.drawsOf at hf
  generalize s.draws.filter (fun d => d.2.op = e.id) = ds at *
  obtain ⟨i, mg, call, res⟩ := e
  dsimp only at *
  rcases call_shape E (M mg) call with ⟨x, hx, hno⟩ | ⟨data, pw, -, hx⟩ | ⟨l, hs, k, hx, hk⟩
  · have : ∀ o, res ≠ .ok o := by
      intro o ho
      have := hf o ho
      rw [hx] at this
      generalize ds.map Prod.snd = ds' at this
      cases this
      exact hno o rfl
    exact ⟨fun b hb => absurd hb (this _), fun b hb => absurd hb (this _)⟩
  · rw [hx] at hf
    constructor
    · intro b hb
      obtain ⟨d, e, hde, h1, h2, b', tag, ct, ho, hP⟩ := follows_mapOk_encrypt (hf _ hb)
      cases ho
      match ds, hde with
      | [(m1, ⟨t1, i1, p, n1⟩), (m2, ⟨t2, i2, q, n2⟩)], hde =>
        simp only [List.map_cons, List.map_nil, List.cons.injEq, and_true] at hde
        obtain ⟨rfl, rfl⟩ := hde
        obtain ⟨rfl, rfl⟩ := hm' (m1, ⟨t1, i1, p, n1⟩) (by simp)
        obtain ⟨q1, q2⟩ := hm' (m2, ⟨t2, i2, q, n2⟩) (by simp)
        dsimp only at h1 h2 q1 q2
        subst h1 h2 q1 q2
        exact ⟨t1, t2, p, q, tag, ct, rfl, hP⟩
    · intro text ht
      obtain ⟨_, _, _, _, _, _, _, _, ho, -⟩ := follows_mapOk_encrypt (hf _ ht)
      cases ho
  · rw [hx] at hf
    have main : ∀ o, res = .ok o → ∃ t p text m, o = .text text ∧ ds = [(mg, ⟨t, i, p, (M mg).seedSize / 8⟩)] ∧
        Bip39.Mnemonics.fromString (Language.toDict l) text = .ok m ∧ Carries E.H.sha256 m.idx (seg (src mg).stream p ((M mg).seedSize / 8)) := by
      intro o ho
      have hf := hf o ho
      generalize hds : ds.map Prod.snd = ds' at hf
      cases hf with
      | cons n k d ds2 q h1 hf =>
      obtain ⟨text, e1, e2⟩ := hk (seg (src mg).stream d.pos ((M mg).seedSize / 8)) (by simp)
      rw [e2] at hf
      cases hf with
      | nil =>
      match ds, hds with
      | [(m1, ⟨t1, i1, p, n1⟩)], hds =>
        simp only [List.map_cons, List.map_nil, List.cons.injEq, and_true] at hds
        subst hds
        obtain ⟨q1, q2⟩ := hm' (m1, ⟨t1, i1, p, n1⟩) (by simp)
        dsimp only at q1 q2 h1
        subst q1 q2 h1
        obtain ⟨bytes, text', m, seed, z1, -, z2, z3, z4, -⟩ := C15_generate E.H (M m1).seedSize l
          ⟨(src m1).stream, fun _ => false, p, 0, false⟩ [] hs rfl rfl
        have : bytes = seg (src m1).stream p ((M m1).seedSize / 8) := z1
        subst this
        rw [e1] at z2
        cases z2
        exact ⟨t1, p, text, m, rfl, rfl, z3, z4⟩
    constructor
    · intro b hb
      obtain ⟨_, _, _, _, ho, -⟩ := main _ hb
      cases ho
    · intro text ht
      obtain ⟨t, p, text', m, ho, h1, h2, h3⟩ := main _ ht
      cases ho
      exact ⟨t, p, l, m, h1, h2, h3⟩

theorem mapOk_ok {α : Type} {f : α → Out} {x : RM Error α} {r : Rng} {o : Out} (h : ((RM.mapOk f x).run r).1 = .ok o) :
    ∃ a r', x.run r = (.ok a, r') ∧ f a = o := by
  rw [RM.mapOk, RM.run_bind] at h
  rcases hy : x.run r with ⟨y, r'⟩
  rw [hy] at h
  cases y with
  | ok a =>
    have h : Res.ok (ε := Error) (f a) = .ok o := h
    cases h
    exact ⟨a, r', rfl, rfl⟩
  | err e => cases h
  | panic => cases h

/-- C88: what calls of any threads have made of a wallet is what the same operations make of it one after the other. -/
theorem C88_lineage (E : Env) (M : Nat → Manager) (src : Nat → Rng) (s : State) (h : Reach E M src s) (w w' : Bytes × Str) (evs : List Event)
    (hd : Derives M s.done w evs w') : Run E w evs w' := by
  induction hd with
  | nil => exact .nil _
  | change evs b p b' p' i m _ he ih =>
    obtain ⟨r, -, hr, -⟩ := C88_alone E M src s h _ he
    obtain ⟨_, r', hr, e⟩ := mapOk_ok hr
    cases e
    exact .change _ _ _ _ _ _ r r' ih hr
  | add evs b p b' it n i m _ he ih =>
    obtain ⟨r, -, hr, -⟩ := C88_alone E M src s h _ he
    obtain ⟨_, r', hr, e⟩ := mapOk_ok hr
    cases e
    exact .add _ _ _ _ _ _ it n r r' ih hr

theorem derives_mgr {M : Nat → Manager} {done : List Entry} {w w' : Bytes × Str} {evs : List Event} (h : Derives M done w evs w') :
    ∀ M' n, Event.added M' n ∈ evs → ∃ m, M' = M m := by
  induction h with
  | nil => intro _ _ h; cases h
  | change evs b p b' p' i m _ _ ih =>
    intro M' n hm
    rw [List.mem_append, List.mem_singleton] at hm
    rcases hm with hm | hm
    · exact ih M' n hm
    · cases hm
  | add evs b p b' it n i m _ _ ih =>
    intro M' n hm
    rw [List.mem_append, List.mem_singleton] at hm
    rcases hm with hm | hm
    · exact ih M' n hm
    · cases hm; exact ⟨m, rfl⟩

/-- C88: so a wallet that one thread made from a seed and others changed is the file that the documents describe, with exactly the keys of its
own history. -/
theorem C88_wallet (D : Base64.Decoder) (nonce : Nonces) (tries : Nat) (Ed : Cardano.Ed) (M : Nat → Manager)
    (hM : ∀ m, BuiltIn Real.hashes (curve nonce tries) Ed (M m)) (src : Nat → Rng) (s : State) (h : Reach (realEnv D) M src s)
    (i m : Nat) (itF : Iter (Network × Factory)) (itK : Iter (Network × Bytes)) (seed b0 b : Bytes) (p0 p : Str) (evs : List Event)
    (he : ⟨i, m, .fromSeed itF itK seed p0, .ok (.blob b0)⟩ ∈ s.done) (hd : Derives M s.done (b0, p0) evs (b, p))
    (hp : (Str.utf8 p).length < 2 ^ 123) (hb : b.length < 2 ^ 64) :
    ∃ keys, IsPlainFile (Str.utf8 p) (.seed seed) keys b ∧ (∀ e ∈ keys, KeyData seed e) ∧ (keys.map Prod.fst).Nodup ∧
      ∀ n, n ∈ keys.map Prod.fst ↔ (M m).hasNetwork n = true ∨ ∃ M', Event.added M' n ∈ evs := by
  obtain ⟨r, -, hr, -⟩ := C88_alone _ M src s h _ he
  obtain ⟨_, r', hr, e⟩ := mapOk_ok hr
  cases e
  have hev : ∀ M' n, Event.added M' n ∈ evs → BuiltIn Real.hashes (curve nonce tries) Ed M' := by
    intro M' n hm
    obtain ⟨m', rfl⟩ := derives_mgr hd M' n hm
    exact hM m'
  obtain ⟨keys, h1, -, h2⟩ := (C87_written D nonce tries Ed itF itK (M m) (hM m) r r' b0 b p0 p evs (C88_lineage _ M src s h _ _ _ hd) hev hp hb).1 seed hr
  exact ⟨keys, h1, h2⟩

/-- C88: no merging: when two threads add networks to the same wallet, neither result has the other's network. -/
theorem C88_branches (E : Env) (hA : AeadCorrect E.A) (M : Nat → Manager) (src : Nat → Rng) (s : State) (h : Reach E M src s) (i j m m' : Nat)
    (it it' : Iter (Network × Bytes)) (b b1 b2 : Bytes) (p : Str) (n1 n2 : Network) (hne : n1 ≠ n2) (c : Content) (hc : Holds E b p c)
    (h1 : ⟨i, m, .add it b p n1, .ok (.blob b1)⟩ ∈ s.done) (h2 : ⟨j, m', .add it' b p n2, .ok (.blob b2)⟩ ∈ s.done) :
    ∃ c1 c2, Holds E b1 p c1 ∧ Holds E b2 p c2 ∧ c1.keys n1 ≠ none ∧ c1.keys n2 = none ∧ c2.keys n2 ≠ none ∧ c2.keys n1 = none := by
  obtain ⟨r, -, hr, -⟩ := C88_alone _ M src s h _ h1
  obtain ⟨_, r', hr, e⟩ := mapOk_ok hr
  cases e
  obtain ⟨q, -, hq, -⟩ := C88_alone _ M src s h _ h2
  obtain ⟨_, q', hq, e⟩ := mapOk_ok hq
  cases e
  obtain ⟨_, _, d1, -, e1, -, -, -, k1⟩ := C43_added E hA it (M m) b b1 p n1 r r' hr c hc
  obtain ⟨_, _, d2, -, e2, -, -, -, k2⟩ := C43_added E hA it' (M m') b b2 p n2 q q' hq c hc
  exact ⟨_, _, k1, k2, by simp, by simp [hne.symm, e2], by simp, by simp [hne, e1]⟩

/-! ### A case -/

/-- Let a thread go on, or begin a call if it is in none. -/
def go (E : Env) (M : Nat → Manager) (s : State) (x : Nat × Option (Nat × Call)) : State :=
  match s.busy x.1 with
  | none => match x.2 with
    | some (m, c) => { s with busy := upd s.busy x.1 (some ⟨s.next, m, c, c.prog E (M m)⟩), next := s.next + 1 }
    | none => s
  | some ⟨i, m, c, .ret y⟩ => { s with busy := upd s.busy x.1 none, done := s.done ++ [⟨i, m, c, y⟩] }
  | some ⟨i, m, c, .draw n k⟩ =>
    match (s.src m).fill n with
    | (some b, r) => { s with
        src := upd s.src m r, busy := upd s.busy x.1 (some ⟨i, m, c, k b⟩), draws := s.draws ++ [(m, ⟨x.1, i, (s.src m).pos, n⟩)] }
    | (none, r) => { s with src := upd s.src m r, busy := upd s.busy x.1 none, done := s.done ++ [⟨i, m, c, .panic⟩] }

theorem go_reach {E : Env} {M : Nat → Manager} {src : Nat → Rng} {s : State} (h : Reach E M src s) (x : Nat × Option (Nat × Call)) :
    Reach E M src (go E M s x) := by
  unfold go
  split
  · split
    · exact .step x.1 _ _ h (.begin _ _ _ ‹_›)
    · exact h
  · exact .step x.1 _ _ h (.finish _ _ _ _ _ ‹_›)
  · split
    · exact .step x.1 _ _ h (.draw _ _ _ _ _ _ _ _ ‹_› ‹_›)
    · exact .step x.1 _ _ h (.fail _ _ _ _ _ _ _ ‹_› ‹_›)

theorem gos_reach {E : Env} {M : Nat → Manager} {src : Nat → Rng} {s : State} (h : Reach E M src s) (l : List (Nat × Option (Nat × Call))) :
    Reach E M src (l.foldl (go E M) s) := by
  induction l generalizing s with
  | nil => exact h
  | cons x l ih => exact ih (go_reach h x)

def twoManagers (m : Nat) : Manager := if m = 0 then toyManager [1, 2] else toyManager [1, 2, 3]

/-- Threads 0 and 1 make wallets with the same manager at the same time. -/
def bothMade : State := [(0, some (0, .fromSeed forwards forwards (List.replicate 64 9) ['a'])), (1, some (0, .fromSeed forwards forwards (List.replicate 64 8) ['b'])),
    (1, none), (0, none), (1, none), (0, none), (0, none), (1, none)].foldl (go toyEnv twoManagers) (init fun _ => countingRng)

/-- The wallet of a finished call. -/
def State.wallet (s : State) (k : Nat) : Bytes :=
  match s.done[k]? with
  | some ⟨_, _, _, .ok (.blob b)⟩ => b
  | _ => []

/-- Then thread 1 changes the password of the wallet that thread 0 made, while thread 0 adds a network to it with another manager; then thread 2
adds the network to the wallet with the new password. -/
def changed : State := [(1, some (0, .change (State.wallet bothMade 0) ['a'] ['c'])), (0, some (1, .add forwards (State.wallet bothMade 0) ['a'] 3)),
    (1, none), (0, none), (0, none), (1, none), (1, none), (0, none)].foldl (go toyEnv twoManagers) bothMade
def ended : State :=
  [(2, some (1, .add forwards (State.wallet changed 2) ['c'] 3)), (2, none), (2, none), (2, none)].foldl (go toyEnv twoManagers) changed

/-- What a call does to which wallet. -/
def Call.what : Call → Option (Bytes × Str × Option Str × Option UInt32)
  | .change b o n => some (b, o, some n, none)
  | .add _ b p n => some (b, p, none, some n)
  | _ => none

/-- The `k`-th finished call is this one. -/
def isCall (s : State) (k m : Nat) (w : Bytes × Str × Option Str × Option UInt32) : Bool :=
  decide ((s.done[k]?.map fun e => (e.id, e.mgr)) = some (k, m)) && decide ((s.done[k]?.bind fun e => e.call.what) = some w) &&
    !(State.wallet s k).isEmpty

theorem entry_of {s : State} (k : Nat) {m : Nat} {w : Bytes × Str × Option Str × Option UInt32}
    (h : isCall s k m w = true) : ∃ c, c.what = some w ∧ (⟨k, m, c, .ok (.blob (State.wallet s k))⟩ : Entry) ∈ s.done := by
  simp only [isCall, Bool.and_eq_true, decide_eq_true_eq, Bool.not_eq_true', List.isEmpty_eq_false_iff] at h
  obtain ⟨⟨h, hw⟩, hl⟩ := h
  rw [State.wallet] at hl ⊢
  cases he : s.done[k]? with
  | none => rw [he] at hl; exact absurd rfl hl
  | some e =>
    rw [he] at h hl hw
    obtain ⟨i, m', c, res⟩ := e
    simp only [Option.map_some, Option.some.injEq, Prod.mk.injEq] at h
    obtain ⟨rfl, rfl⟩ := h
    match res, hl, he with
    | .ok (.blob b), _, he => exact ⟨c, hw, List.mem_of_getElem? he⟩
    | .ok (.text _), hl, _ => exact absurd rfl hl
    | .err _, hl, _ => exact absurd rfl hl
    | .panic, hl, _ => exact absurd rfl hl

theorem derives_two {M : Nat → Manager} {done : List Entry} {b b1 b2 : Bytes} {p q : Str} {n : Network} {i j m m' : Nat} {c c' : Call}
    (h : c.what = some (b, p, some q, none)) (h' : c'.what = some (b1, q, none, some n)) (h1 : ⟨i, m, c, .ok (.blob b1)⟩ ∈ done)
    (h2 : ⟨j, m', c', .ok (.blob b2)⟩ ∈ done) : Derives M done (b, p) [.changed, .added (M m') n] (b2, q) := by
  cases c with
  | change b o n =>
    cases c' with
    | add it b' p n' =>
      simp only [Call.what, Option.some.injEq, Prod.mk.injEq, and_true, true_and] at h h'
      obtain ⟨rfl, rfl, rfl⟩ := h
      obtain ⟨rfl, rfl, rfl⟩ := h'
      exact .add _ [.changed] _ _ _ it _ j m' (.change _ [] _ _ _ _ i m (.nil _) h1) h2
    | _ => simp [Call.what] at h'
  | _ => simp [Call.what] at h

theorem ended_reach : Reach toyEnv twoManagers (fun _ => countingRng) ended := by
  unfold ended
  refine gos_reach ?_ _
  unfold changed
  refine gos_reach ?_ _
  unfold bothMade
  exact gos_reach .init _

theorem ended_facts : (decide (ended.draws.map (fun d => (d.1, d.2.thread, d.2.pos, d.2.len)) =
      [(0, 1, 0, 32), (0, 0, 32, 32), (0, 1, 64, 12), (0, 0, 76, 12), (0, 1, 88, 32), (1, 0, 0, 32), (1, 0, 32, 12), (0, 1, 120, 12), (1, 2, 44, 32), (1, 2, 76, 12)]) &&
    decide (ended.done.map Entry.id = [0, 1, 2, 3, 4]) && ((List.range 5).all fun k => decide (60 < (State.wallet ended k).length)) &&
    isCall ended 2 0 (State.wallet ended 0, ['a'], some ['c'], none) && isCall ended 4 1 (State.wallet ended 2, ['c'], none, some 3)) = true := by decide +kernel

/-- A case of C88: all calls succeed; the draws were interleaved; the last wallet comes from the first by a password change and an added network. -/
theorem C88_case : Reach toyEnv twoManagers (fun _ => countingRng) ended ∧
    ended.draws.map (fun d => (d.1, d.2.thread, d.2.pos, d.2.len)) =
      [(0, 1, 0, 32), (0, 0, 32, 32), (0, 1, 64, 12), (0, 0, 76, 12), (0, 1, 88, 32), (1, 0, 0, 32), (1, 0, 32, 12), (0, 1, 120, 12), (1, 2, 44, 32), (1, 2, 76, 12)] ∧
    ended.done.map Entry.id = [0, 1, 2, 3, 4] ∧ (∀ k, k < 5 → 60 < (State.wallet ended k).length) ∧
    Derives twoManagers ended.done (State.wallet ended 0, ['a']) [.changed, .added (twoManagers 1) 3] (State.wallet ended 4, ['c']) := by
  have h := ended_facts
  simp only [Bool.and_eq_true, decide_eq_true_eq, List.all_eq_true, List.mem_range] at h
  obtain ⟨⟨⟨⟨h1, h2⟩, h3⟩, h4⟩, h5⟩ := h
  obtain ⟨c1, w1, e1⟩ := entry_of 2 h4
  obtain ⟨c2, w2, e2⟩ := entry_of 4 h5
  exact ⟨ended_reach, h1, h2, h3, derives_two w1 w2 e1 e2⟩

end KC.Props
