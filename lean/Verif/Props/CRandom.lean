import Verif.Props.CMemory
/-
C54 through the C interface: a failing random source.
-/
namespace KC.Props
open KC.C KC.Spec.C KC.Spec.Wallet
open KC.Mnemonic (Language)

/-- The C functions that need randomness. -/
def Draws {k : Kind} : Fn k → Bool
  | .generate .. | .fromSeed .. | .fromMnemonic .. | .add .. | .change .. => true
  | _ => false

/-- C54: if the source fails during a C call, the call returns false with a Panic error, and the manager's source is poisoned. -/
theorem C54_c_failure (W : Build) (x : Ctx) {k : Kind} (f : Fn k) (val : Val k) (err : ErrorPtr) (h : Heap) (i : Nat) (M : Manager) (r : Rng)
    (hk : f.handle = some .manager) (hl : Live h i W.manager (.manager M r)) (h0 : r.poisoned = false)
    (hp : ((f.lib W x (.manager M r)).run r).2.poisoned = true) (hn : '\x00' ∉ x.panic.message) :
    ∃ e h' r', f.call W x (.to i) val err h = .ret false val e h' ∧ Reads W h' .error e (.panic, x.panic.message) ∧
      Live h' i W.manager (.manager M r') ∧ r'.poisoned = true := by
  have ht : Names W h (.to i) f.handle (.manager M r) := by rw [hk]; exact .manager i M r rfl hl
  have hpanic := (C54_failure _ r h0 hp).1
  have hlive : Live (withRng h (.manager M r) (.to i) ((f.lib W x (.manager M r)).run r).2) i W.manager
      (.manager M ((f.lib W x (.manager M r)).run r).2) := by
    unfold Live
    rw [withRng_get hl, if_pos rfl]
  have hE := call_ends x val err ht
  generalize f.call W x (.to i) val err h = out at hE
  have hpanic' : ((f.lib W x (.manager M r)).run (Target.manager M r).rng).1 = .panic := hpanic
  cases hE with
  | good c v new h1 h2 h3 h4 h5 => rw [hpanic'] at h1; cases h1
  | bad e ty s b h1 h2 h3 =>
    rcases h3 with ⟨er, h3, -⟩ | ⟨-, rfl, rfl⟩
    · rw [hpanic'] at h3; cases h3
    · exact ⟨e, _, _, rfl, h1, live_append _ hlive, hp⟩
  | unwind h1 =>
    rcases h1 with ⟨er, h1, -⟩ | ⟨-, h1⟩
    · rw [hpanic'] at h1; cases h1
    · exact absurd ((nul_utf8 _).mp h1) hn

theorem run_mapOk {ε α β : Type} (g : α → β) (y : RM ε α) (r : Rng) : (RM.mapOk g y).run r = ((y.run r).1.map g, (y.run r).2) := by
  unfold RM.mapOk
  rw [RM.run_bind]
  rcases y.run r with ⟨_ | _ | _, r'⟩ <;> rfl

/-- `C54_poisoned` for a call of the library without the wrapping of its result. -/
theorem poisoned_of {α : Type} {g : α → Out} {E : Env} {M : Manager} {c : Call} {y : RM Error α} (hc : c.prog E M = RM.mapOk g y) {r r0 : Rng}
    (hr : r.poisoned = true) (h0 : Delivers r0) :
    ((∃ a, (y.run r0).1 = .ok a) → (y.run r).1 = .panic) ∧ (∀ e, (y.run r0).1 = .err e → (y.run r).1 = .err e) ∧
    ((y.run r0).1 = .panic → (y.run r).1 = .panic) := by
  obtain ⟨p1, p2, p3⟩ := C54_poisoned E M c r r0 hr h0
  rw [hc, run_mapOk, run_mapOk] at p1 p2 p3
  refine ⟨?_, fun e he => ?_, fun he => ?_⟩
  · rintro ⟨a, ha⟩
    exact Res.map_eq_panic.mp (congrArg Prod.fst (p1 ⟨g a, by rw [ha]; rfl⟩))
  · exact Res.map_eq_err.mp (congrArg Prod.fst (p2 e (by rw [he]; rfl)))
  · exact Res.map_eq_panic.mp (congrArg Prod.fst (p3 (by rw [he]; rfl)))

/-- C54: the library call behind a C function on a manager with a poisoned source: one that needs randomness panics where it would have
succeeded with a working source, and gives the same error otherwise; one that needs none behaves as with any source. -/
theorem C54_c_lib (W : Build) (x : Ctx) {k : Kind} (f : Fn k) (M : Manager) (r r0 : Rng) (hr : r.poisoned = true) :
    (Draws f = true → Delivers r0 →
      ((∃ c, ((f.lib W x (.manager M r)).run r0).1 = .ok c) → ((f.lib W x (.manager M r)).run r).1 = .panic) ∧
      (∀ e, ((f.lib W x (.manager M r)).run r0).1 = .err e → ((f.lib W x (.manager M r)).run r).1 = .err e) ∧
      (((f.lib W x (.manager M r)).run r0).1 = .panic → ((f.lib W x (.manager M r)).run r).1 = .panic)) ∧
    (Draws f = false → ((f.lib W x (.manager M r)).run r).1 = ((f.lib W x (.manager M r)).run r0).1) := by
  have dec : ∀ {α : Type} {s : CText} {y : Str → RM Error α},
      (∀ t, ((∃ c, ((y t).run r0).1 = .ok c) → ((y t).run r).1 = .panic) ∧ (∀ e, ((y t).run r0).1 = .err e → ((y t).run r).1 = .err e) ∧
        (((y t).run r0).1 = .panic → ((y t).run r).1 = .panic)) →
      ((∃ c, ((decode s y).run r0).1 = .ok c) → ((decode s y).run r).1 = .panic) ∧
      (∀ e, ((decode s y).run r0).1 = .err e → ((decode s y).run r).1 = .err e) ∧
      (((decode s y).run r0).1 = .panic → ((decode s y).run r).1 = .panic) := by
    intro α s y hy
    rw [run_decode, run_decode]
    cases Json.ofUtf8 s.val with
    | some t => exact hy t
    | none => exact ⟨fun ⟨_, h⟩ => (by cases h), fun e h => (by cases h), fun _ => rfl⟩
  have ret : ∀ {α : Type} {s : CText} {y : Str → Res Error α}, ((decode s fun t => .ret (y t)).run r).1 = ((decode s fun t => .ret (y t)).run r0).1 := by
    intro α s y
    rw [run_decode, run_decode]
    cases Json.ofUtf8 s.val <;> rfl
  constructor
  · intro hd h0
    cases f with
    | generate l => exact poisoned_of (c := .generate (some (language l))) rfl hr h0
    | fromSeed s pw => exact dec fun t => poisoned_of (c := .fromSeed x.factories x.keys s t) rfl hr h0
    | fromMnemonic m pw l => exact dec fun t => dec fun t' => poisoned_of (c := .fromMnemonic x.factories x.keys t t' (some (language l))) rfl hr h0
    | add d pw n => exact dec fun t => poisoned_of (c := .add x.keys d t n.val) rfl hr h0
    | change d o n => exact dec fun t => dec fun t' => poisoned_of (M := M) (c := .change d t t') rfl hr h0
    | _ => cases hd
  · intro hd
    cases f with
    | keypathFromString s => exact ret
    | «open» d pw => exact ret
    | keysData d pw => exact ret
    | retrieve d pw => exact ret
    | generate l => cases hd
    | fromSeed s pw => cases hd
    | fromMnemonic m pw l => cases hd
    | add d pw n => cases hd
    | change d o n => cases hd
    | _ => rfl

/-- C54: a C call on a manager with a poisoned source: one that needs randomness and would succeed with a working source returns false
with a Panic error; errors are reported as usual; one that needs none hands out its result as usual. -/
theorem C54_c_poisoned (W : Build) (x : Ctx) {k : Kind} (f : Fn k) (val : Val k) (err : ErrorPtr) (h : Heap) (i : Nat) (M : Manager)
    (r r0 : Rng) (hk : f.handle = some .manager) (hl : Live h i W.manager (.manager M r)) (hr : r.poisoned = true) (h0 : Delivers r0) :
    (∀ c, ((f.lib W x (.manager M r0)).run r0).1 = .ok c → Draws f = true → '\x00' ∉ x.panic.message →
      ∃ e h', f.call W x (.to i) val err h = .ret false val e h' ∧ Reads W h' .error e (.panic, x.panic.message)) ∧
    (∀ e, ((f.lib W x (.manager M r0)).run r0).1 = .err e → '\x00' ∉ e.display x.texts →
      ∃ er h', f.call W x (.to i) val err h = .ret false val er h' ∧ Reads W h' .error er (errorType e, e.display x.texts)) ∧
    (∀ c, ((f.lib W x (.manager M r0)).run r0).1 = .ok c → Draws f = false → Fits k c →
      ∃ v h', f.call W x (.to i) val err h = .ret true v err h' ∧ Reads W h' k v c) := by
  have ht : Names W h (.to i) f.handle (.manager M r) := by rw [hk]; exact .manager i M r rfl hl
  have hsame : f.lib W x (.manager M r0) = f.lib W x (.manager M r) := by cases f <;> rfl
  rw [hsame]
  obtain ⟨o1, o2, o3⟩ := C49_outcome W x (.to i) f val err h _ ht
  obtain ⟨l1, l2⟩ := C54_c_lib W x f M r r0 hr
  refine ⟨fun c hc hd hn => o3 (.inl ((l1 hd h0).1 ⟨c, hc⟩)) hn, fun e he hn => o2 e ?_ hn, fun c hc hd hf => o1 c ?_ hf⟩
  · cases hd : Draws f with
    | true => exact (l1 hd h0).2.1 e he
    | false => exact (l2 hd).trans he
  · exact (l2 hd).trans hc

/-- C54: histories.  Once the source of a manager in a variable is poisoned, it stays so over all further steps of a C program that do
not delete that manager, whatever they do; so `C54_c_poisoned` applies to every later call on it. -/
theorem C54_c_history (W : Build) (ops : List Op) (s s' : State) (hs : Sound W s) (hf : Follows W ops s) (hrun : s.run W ops = .next s')
    (j : Nat) (hj : ∀ op ∈ ops, Spares j op) (p : Ptr) (hv : s.vars[j]? = some ⟨.manager, p⟩) (M : Manager) (r : Rng)
    (hread : Reads W s.heap .manager p (M, r)) (hr : r.poisoned = true) :
    ∃ i, s'.handle (some .manager) j = .to i ∧ Live s'.heap i W.manager (.manager M r) := by
  obtain ⟨h1, h2, -⟩ := C52_kept_history W ops s s' hs hf hrun j hj _ hv
  obtain ⟨⟨M', r'⟩, ⟨i, hp, hl⟩, hsame⟩ := h2 (M, r) hread
  obtain ⟨hM, hrr⟩ : M = M' ∧ (r.poisoned = true → r' = r) := hsame
  subst hM
  rw [hrr hr] at hl
  refine ⟨i, ?_, hl⟩
  unfold State.handle
  rw [h1]
  have hp : p = .to i := hp
  simp [Var.handle, hp]

/-! ### Non-vacuity -/

/-- What C sees of a call: what it returned and the type of the error. -/
def seen {α} : CallOut α → Option (Bool × Int)
  | .ret b _ e _ => some (b, e.errorType.code)
  | _ => none

/-- The source fails at its second call. -/
def brokenManager : Heap := [some ⟨⟨72, 8⟩, .manager (toyManager [1, 2]) brokenRng⟩]

/-- Non-vacuity of C54: the encryption of a new wallet fails at the nonce; the call returns a Panic error ... -/
example : seen ((Fn.fromSeed (List.replicate 64 9) ⟨[112], by decide⟩).call toyBuild toyCtx (.to 0) ⟨.null, 0⟩ ⟨.keyError, .null⟩ brokenManager) =
    some (false, -1) := by decide +kernel

/-- ... and in the history below, after it, generating a phrase gives a Panic error, a bad seed its usual error, and the networks and an
existing wallet are available as before. -/
example : (match State.run toyBuild
      [.call .manager (.managerNew brokenRng) toyCtx 0 .null ⟨.panic, .null⟩,
       .call .data (.fromSeed (List.replicate 64 9) ⟨[112], by decide⟩) toyCtx 0 ⟨.null, 0⟩ ⟨.panic, .null⟩,
       .call .text (.generate .english) toyCtx 0 .null ⟨.panic, .null⟩,
       .call .data (.fromSeed [9] ⟨[112], by decide⟩) toyCtx 0 ⟨.null, 0⟩ ⟨.panic, .null⟩,
       .call .bool (.hasNetwork ⟨1⟩) toyCtx 0 false ⟨.panic, .null⟩,
       .call .keychain (.open toyBlob ⟨[112], by decide⟩) toyCtx 0 .null ⟨.panic, .null⟩] ⟨[], []⟩ with
    | .next s => s.vars.map fun v => (match v with
      | ⟨.error, e⟩ => (Kind.error, e.errorType.code)
      | ⟨k, _⟩ => (k, 0))
    | _ => []) = [(.manager, 0), (.error, -1), (.error, -1), (.error, 5), (.bool, 0), (.keychain, 0)] := by decide +kernel

end KC.Props
