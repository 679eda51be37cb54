import Verif.Props.CApi
/-
C52: ownership of the memory handed to C.
-/
namespace KC.Props
open KC.C KC.Spec.C

/-- C52: any program that follows the rule (no text deleted twice, no non-empty network list deleted), starting with nothing, never has
undefined behaviour: no double free, no use after free, no free with another layout.  After every step memory is in order. -/
theorem C52_history (W : Build) (ops : List Op) (hf : Follows W ops ⟨[], []⟩) :
    State.run W ops ⟨[], []⟩ ≠ .ub ∧ ∀ s, State.run W ops ⟨[], []⟩ = .next s → Sound W s := by
  have h0 : Sound W ⟨[], []⟩ := ⟨nofun, List.nodup_nil, fun i => by simp [State.owned]⟩
  rcases sound_run ops h0 hf with ⟨s', h1, h2⟩ | h
  · rw [h1]
    exact ⟨nofun, fun s hs => by cases hs; exact h2⟩
  · rw [h]
    exact ⟨nofun, nofun⟩

/-- C52: deleting a variable frees just the blocks it is responsible for and leaves it deleted. -/
theorem C52_delete (W : Build) (s : State) (hs : Sound W s) (j : Nat) (v : Var) (hv : s.vars[j]? = some v) (ha : Allowed s (.delete j)) :
    ∃ s' v', s.step W (.delete j) = .next s' ∧ s'.vars = s.vars.set j ⟨v.kind, v'⟩ ∧ Gone s'.heap v.kind v' ∧
      (∀ i ∈ Spec.C.owned s.heap v.kind v.val, s'.heap[i]? = some none) ∧
      ∀ i : Nat, i ∉ Spec.C.owned s.heap v.kind v.val → s'.heap[i]? = s.heap[i]? := by
  obtain ⟨s', h1, h2, h3, v', h4, h5⟩ := sound_delete hs hv ha
  refine ⟨s', v', h1, h4, h5, fun i hi => ?_, fun i hi => ?_⟩
  · rw [h3, clear_get, if_pos hi]
    have hlt : i < s.heap.length := owned_lt hs (List.mem_flatMap.mpr ⟨v, List.mem_of_getElem? hv, hi⟩)
    rw [List.getElem?_eq_getElem hlt]; rfl
  · rw [h3, clear_get, if_neg hi]

/-- C52: what a value stands for, and which blocks it is responsible for: of a live value there is at least its own block, of a deleted
value none. -/
theorem C52_owned (W : Build) (h : Heap) (k : Kind) (v : Val k) : (Gone h k v → Spec.C.owned h k v = []) ∧
    ∀ c, Reads W h k v c → ∀ i ∈ Spec.C.owned h k v, ∃ b, h[i]? = some (some b) := by
  refine ⟨gone_owned, fun c hc i hi => ?_⟩
  have bytes : ∀ {d : DataPtr} {b : Bytes}, BytesAt h d b → ∀ i ∈ ptrIds d.ptr, ∃ b, h[i]? = some (some b) := by
    rintro d b ⟨-, ⟨-, hp⟩ | ⟨-, i', hp, hl⟩⟩ i hi
    · rw [hp] at hi; cases hi
    · rw [hp] at hi; cases List.mem_singleton.mp hi; exact ⟨_, hl⟩
  have text : ∀ {p : Ptr} {s : Str}, TextAt h p s → ∀ i ∈ ptrIds p, ∃ b, h[i]? = some (some b) := by
    rintro p s ⟨-, i', rfl, hl⟩ i hi
    cases List.mem_singleton.mp hi; exact ⟨_, hl⟩
  cases k with
  | path => cases hi
  | bool => cases hi
  | text => rw [owned_text hc] at hi; exact text hc i hi
  | data => exact bytes hc i hi
  | networks =>
    obtain ⟨-, ⟨-, hp⟩ | ⟨-, i', hp, hl⟩⟩ := hc
    · simp only [owned, hp] at hi; cases hi
    · simp only [owned, hp] at hi; cases List.mem_singleton.mp hi; exact ⟨_, hl⟩
  | keychain => obtain ⟨i', rfl, hl⟩ := hc; cases List.mem_singleton.mp hi; exact ⟨_, hl⟩
  | manager => obtain ⟨i', rfl, hl⟩ := hc; cases List.mem_singleton.mp hi; exact ⟨_, hl⟩
  | backup =>
    obtain ⟨-, ⟨-, hp⟩ | ⟨-, i', es, hp, hl, he⟩⟩ := hc
    · simp only [owned, hp] at hi; cases hi
    · rw [owned_backup hp hl] at hi
      rcases List.mem_append.mp hi with hi | hi
      · have elems : ∀ (es : List KeyBackupElem) (cs), ElemsAt h es cs → i ∈ elemIds es → ∃ b, h[i]? = some (some b) := by
          intro es
          induction es with
          | nil => intro cs _ hi; cases hi
          | cons e es ih =>
            intro cs hcs hi
            cases cs with
            | nil => cases hcs
            | cons c cs =>
              obtain ⟨-, h2, h3⟩ := hcs
              have hi : i ∈ ptrIds e.data.ptr ++ elemIds es := hi
              rcases List.mem_append.mp hi with hi | hi
              · exact bytes h2 i hi
              · exact ih cs h3 hi
        exact elems es c he hi
      · cases List.mem_singleton.mp hi; exact ⟨_, hl⟩
  | info => exact text hc.1 i hi
  | error => exact text hc.2 i hi

theorem Same.trans {k : Kind} {a b c : Content k} (h : Same k a b) (h' : Same k b c) : Same k a c := by
  cases k with
  | manager => exact ⟨h.1.trans h'.1, fun hp => by rw [h'.2 (by rw [h.2 hp]; exact hp), h.2 hp]⟩
  | _ => exact Eq.trans h h'

theorem Same.refl {k : Kind} (a : Content k) : Same k a a := by
  cases k with
  | manager => exact ⟨rfl, fun _ => rfl⟩
  | _ => exact rfl

/-- The step does not delete variable `j`. -/
def Spares (j : Nat) : Op → Prop
  | .delete i => i ≠ j
  | .call .. => True

/-- C52: a step other than its own deletion leaves a variable and its content as they are (only the random source of a manager moves). -/
theorem C52_kept (W : Build) (s s' : State) (hs : Sound W s) (op : Op) (ha : Allowed s op) (hst : s.step W op = .next s') (j : Nat)
    (hj : Spares j op) (v : Var) (hv : s.vars[j]? = some v) :
    s'.vars[j]? = some v ∧ (∀ c, Reads W s.heap v.kind v.val c → ∃ c', Reads W s'.heap v.kind v.val c' ∧ Same v.kind c c') ∧
    (Gone s.heap v.kind v.val → Gone s'.heap v.kind v.val) := by
  cases op with
  | call k f x i val err =>
    rcases sound_call hs f x i val err with ⟨s1, w, h1, h2, -, hk⟩ | h
    · rw [hst] at h1
      cases h1
      refine ⟨?_, fun c hc => ?_, gone_keeps hk⟩
      · rw [h2, List.getElem?_append_left (List.getElem?_eq_some_iff.mp hv).1, hv]
      · obtain ⟨c', q1, q2, -⟩ := reads_keeps hk hc nofun
        exact ⟨c', q1, q2⟩
    · rw [h] at hst; cases hst
  | delete i =>
    have hj : i ≠ j := hj
    cases hi : s.vars[i]? with
    | none =>
      simp only [State.step, hi] at hst
      cases hst
      exact ⟨hv, fun c hc => ⟨c, hc, Same.refl c⟩, id⟩
    | some u =>
      obtain ⟨s1, h1, -, h3, u', h4, -⟩ := sound_delete hs hi ha
      rw [hst] at h1
      cases h1
      have hk := Keeps.clear s.heap (Spec.C.owned s.heap u.kind u.val)
      rw [← h3] at hk
      refine ⟨?_, fun c hc => ?_, gone_keeps hk⟩
      · rw [h4, List.getElem?_set_ne hj, hv]
      · have hd : ∀ a ∈ Spec.C.owned s.heap v.kind v.val, a ∉ Spec.C.owned s.heap u.kind u.val := by
          intro a ha1 ha2
          obtain ⟨hsplit, -⟩ := split_at hi
          have hv' : v ∈ s.vars.take i ++ s.vars.drop (i + 1) := by
            obtain ⟨hlt, hjv⟩ := List.getElem?_eq_some_iff.mp hv
            rcases Nat.lt_or_ge j i with hlt' | hge
            · refine List.mem_append_left _ (List.mem_iff_getElem?.mpr ⟨j, ?_⟩)
              rw [List.getElem?_take_of_lt hlt', hv]
            · refine List.mem_append_right _ (List.mem_iff_getElem?.mpr ⟨j - (i + 1), ?_⟩)
              rw [List.getElem?_drop, show i + 1 + (j - (i + 1)) = j by omega, hv]
          have hnd := hs.once
          have hown : s.owned = (s.vars.take i).flatMap (fun v => Spec.C.owned s.heap v.kind v.val) ++ (Spec.C.owned s.heap u.kind u.val ++
              (s.vars.drop (i + 1)).flatMap (fun v => Spec.C.owned s.heap v.kind v.val)) := by
            rw [State.owned]
            conv => lhs; rw [hsplit]
            simp
          rw [hown] at hnd
          obtain ⟨n1, n2, n3⟩ := List.nodup_append.mp hnd
          obtain ⟨n4, n5, n6⟩ := List.nodup_append.mp n2
          rcases List.mem_append.mp hv' with hv' | hv'
          · exact n3 a (List.mem_flatMap.mpr ⟨v, hv', ha1⟩) a (List.mem_append_left _ ha2) rfl
          · exact n6 a ha2 a (List.mem_flatMap.mpr ⟨v, hv', ha1⟩) rfl
        obtain ⟨c', q1, q2, -⟩ := reads_keeps hk hc hd
        exact ⟨c', q1, q2⟩

/-- C52: over any history that does not delete it, a variable and its content stay as they are. -/
theorem C52_kept_history (W : Build) (ops : List Op) (s s' : State) (hs : Sound W s) (hf : Follows W ops s) (hr : s.run W ops = .next s')
    (j : Nat) (hj : ∀ op ∈ ops, Spares j op) (v : Var) (hv : s.vars[j]? = some v) :
    s'.vars[j]? = some v ∧ (∀ c, Reads W s.heap v.kind v.val c → ∃ c', Reads W s'.heap v.kind v.val c' ∧ Same v.kind c c') ∧
    (Gone s.heap v.kind v.val → Gone s'.heap v.kind v.val) := by
  induction ops generalizing s with
  | nil => cases hr; exact ⟨hv, fun c hc => ⟨c, hc, Same.refl c⟩, id⟩
  | cons op ops ih =>
    rcases sound_step hs op hf.1 with ⟨s1, h1, h2⟩ | h
    · simp only [State.run, h1] at hr
      obtain ⟨k1, k2, k3⟩ := C52_kept W s s1 hs op hf.1 h1 j (hj op List.mem_cons_self) v hv
      obtain ⟨k4, k5, k6⟩ := ih s1 h2 (hf.2 s1 h1) hr (fun op ho => hj op (List.mem_cons_of_mem _ ho)) k1
      refine ⟨k4, fun c hc => ?_, fun hg => k6 (k3 hg)⟩
      obtain ⟨c', q1, q2⟩ := k2 c hc
      obtain ⟨c'', q3, q4⟩ := k5 c' q1
      exact ⟨c'', q3, Same.trans q2 q4⟩
    · simp only [State.run, h] at hr
      cases hr

/-- C52: deleting again is harmless: a deleted variable that is not a text can be deleted any time, and nothing at all changes. -/
theorem C52_again (W : Build) (s : State) (j : Nat) (v : Var) (hv : s.vars[j]? = some v) (hk : v.kind ≠ .text)
    (hg : Gone s.heap v.kind v.val) : Allowed s (.delete j) ∧ s.step W (.delete j) = .next s := by
  constructor
  · intro u hu
    rw [hv] at hu
    cases hu
    split
    · exact absurd rfl hk
    · exact .inr hg
    · trivial
  · simp only [State.step, hv, delete_gone hg hk]
    congr
    refine List.ext_getElem? fun i => ?_
    rw [List.getElem?_set]
    split
    · subst_vars
      rw [hv]
      simp [(List.getElem?_eq_some_iff.mp hv).1]
    · rfl

/-- C52: nothing leaks: when all variables are deleted no block is live. -/
theorem C52_no_leak (W : Build) (s : State) (hs : Sound W s) (hg : ∀ v ∈ s.vars, Gone s.heap v.kind v.val) (i : Nat) :
    s.heap[i]?.join = none := by
  have := hs.exact i
  cases h : s.heap[i]?.join with
  | none => rfl
  | some b =>
    rw [h] at this
    obtain ⟨v, hv, hi⟩ := List.mem_flatMap.mp (this.mp rfl)
    rw [gone_owned (hg v hv)] at hi
    cases hi

/-- C52: a deleted handle is null, so a call through it gives a Panic error instead of touching freed memory. -/
theorem C52_deleted_handle (W : Build) (s : State) {k : Kind} (f : Fn k) (x : Ctx) (j : Nat) (v : Var) (hv : s.vars[j]? = some v)
    (hk : f.handle = some v.kind) (hg : Gone s.heap v.kind v.val) (val : Val k) (err : ErrorPtr) (hn : '\x00' ∉ x.panic.message) :
    ∃ e h', f.call W x (s.handle f.handle j) val err s.heap = .ret false val e h' ∧ Reads W h' .error e (.panic, x.panic.message) := by
  have hnull : s.handle f.handle j = .null := by
    unfold State.handle
    rw [hv]
    obtain ⟨kv, v⟩ := v
    cases kv with
    | keychain => have : v = .null := hg; rw [this]; simp [Var.handle]
    | manager => have : v = .null := hg; rw [this]; simp [Var.handle]
    | _ => rfl
  rw [hnull]
  refine (C49_outcome W x .null f val err s.heap .null ?_).2.2 (.inl ?_) hn
  · rw [hk]; exact .null _ rfl
  · cases f with
    | _ => first | rfl | cases hk

/-- C52: the exception for network lists: deleting a non-empty one (as handed out) is undefined behaviour, as it is freed with another
layout, on every target. -/
theorem C52_networks (W : Build) (h : Heap) (v : NetworksPtr) (c : List Network) (hr : Reads W h .networks v c) (hc : c ≠ []) :
    delete W .networks v h = .ub := by
  obtain ⟨h1, ⟨h2, -⟩ | ⟨-, i, h2, hl⟩⟩ := hr
  · exact absurd h2 hc
  · have hlen : 0 < c.length := List.length_pos_iff.mpr hc
    show NetworksPtr.free W v h = _
    unfold NetworksPtr.free
    rw [if_neg (by rw [h2]; nofun), CM.bind_apply, h2, h1]
    have hw := word_pos W
    unfold CM.dealloc
    rw [if_neg (by simp only; exact Nat.mul_ne_zero (by omega) (by omega)), live_at hl]
    dsimp only
    rw [if_neg]
    intro he
    have h3 := congrArg Layout.size he
    have h4 := congrArg Layout.align he
    simp only at h3 h4
    rw [← h4] at h3
    omega

/-- C52: the exception for texts: deleting a null pointer or a text already deleted is undefined behaviour. -/
theorem C52_text (W : Build) (h : Heap) (v : Ptr) (hv : v = .null ∨ Gone h .text v) : delete W .text v h = .ub := by
  have : charFree v h = .ub := by
    rcases hv with rfl | ⟨i, rfl, hi⟩
    · rfl
    · unfold charFree Heap.at
      simp [hi]
  show (deleteString v >>= fun _ => pure v) h = _
  rw [CM.bind_apply]
  unfold deleteString
  rw [CM.bind_apply, this]

/-! ### Non-vacuity -/

/-- The encrypted wallet of a seed in the toy world, under password "p". -/
def toyBlob : Bytes :=
  match ((toyManager [1, 2]).keychainDataFromSeed toyEnv forwards forwards (List.replicate 64 9) ['p']).run countingRng with
  | (.ok b, _) => b
  | _ => []

/-- A history: make a manager; generate a phrase; parse a path that is no path; ask for a network; open a wallet; list its keys and
networks; sign; then delete the phrase, the error twice, the manager, the backup, the signature and the keychain; use the deleted
manager. -/
def sampleOps : List Op :=
  [.call .manager (.managerNew countingRng) toyCtx 0 .null ⟨.panic, .null⟩,
   .call .text (.generate .english) toyCtx 0 .null ⟨.panic, .null⟩,
   .call .path (.keypathFromString ⟨[110], by decide⟩) toyCtx 0 ⟨0, 0, 0, 0, 0⟩ ⟨.panic, .null⟩,
   .call .bool (.hasNetwork ⟨1⟩) toyCtx 0 false ⟨.panic, .null⟩,
   .call .keychain (.open toyBlob ⟨[112], by decide⟩) toyCtx 0 .null ⟨.panic, .null⟩,
   .call .backup (.keysData toyBlob ⟨[112], by decide⟩) toyCtx 0 ⟨.null, 0⟩ ⟨.panic, .null⟩,
   .call .networks .networks toyCtx 4 ⟨.null, 0⟩ ⟨.panic, .null⟩,
   .call .data (.sign ⟨2⟩ [1, 2, 3] ⟨0, 0, 0, 0, 0⟩) toyCtx 4 ⟨.null, 0⟩ ⟨.panic, .null⟩,
   .delete 1, .delete 2, .delete 2, .delete 0, .delete 5, .delete 7, .delete 4,
   .call .bool (.hasNetwork ⟨1⟩) toyCtx 0 false ⟨.panic, .null⟩]

/-- A check that a program follows the rule. -/
def allowedB (s : State) : Op → Bool
  | .call .. => true
  | .delete j =>
    match s.vars[j]? with
    | some ⟨.text, p⟩ => isLive s.heap p
    | some ⟨.networks, n⟩ => n.count == 0 || n.ptr == .null
    | _ => true

def followsB (W : Build) : List Op → State → Bool
  | [], _ => true
  | op :: ops, s => allowedB s op && match s.step W op with
    | .next s' => followsB W ops s'
    | _ => true

theorem followsB_sound (W : Build) (ops : List Op) (s : State) (h : followsB W ops s = true) : Follows W ops s := by
  induction ops generalizing s with
  | nil => trivial
  | cons op ops ih =>
    simp only [followsB, Bool.and_eq_true] at h
    refine ⟨?_, fun s' hs' => ?_⟩
    · cases op with
      | call => trivial
      | delete j =>
        intro v hv
        have h := h.1
        simp only [allowedB, hv] at h
        obtain ⟨k, v⟩ := v
        cases k with
        | text => exact h
        | networks => simpa using h
        | _ => trivial
    · rw [hs'] at h
      exact ih s' h.2

/-- The kinds of the variables and the blocks still live at the end. -/
def summary : Step → Option (List Kind × List Nat)
  | .next s => some (s.vars.map Var.kind, (List.range s.heap.length).filter fun i => s.heap[i]?.join.isSome)
  | _ => none

/-- Non-vacuity of C52: the history follows the rule and ends; only the network list and the last error are left. -/
example : Follows toyBuild sampleOps ⟨[], []⟩ ∧
    summary (State.run toyBuild sampleOps ⟨[], []⟩) =
      some ([.manager, .text, .error, .bool, .keychain, .backup, .networks, .data, .error], [7, 9]) :=
  ⟨followsB_sound _ _ _ (by decide +kernel), by decide +kernel⟩

/-- ... and deleting that network list is the undefined case. -/
example : summary (State.run toyBuild (sampleOps ++ [.delete 6]) ⟨[], []⟩) = none := by decide +kernel

end KC.Props
