import Verif.Spec.PanicHook
import Verif.Props.PanicTexts
import Verif.Props.CMemory
/-
C114: what panics print, and that `keychain_init_library` stops it.
-/
namespace KC.Props
open KC KC.C KC.Spec KC.Spec.C KC.Mnemonic
open KC.Spec.Wallet (Content)

/-- C114: each function guards just that code. -/
theorem C114_body (W : Build) (x : Ctx) (p : Ptr) {k : Kind} (f : Fn k) (val : Val k) (err : ErrorPtr) :
    f.call W x p val err = respond (handleExceptionResult x (f.body W x p)) val err := by
  cases f <;> rfl

/-- C114: the panics of a call and how it ends: none if it works or ends with an error of the library; just the one that a Panic error
tells; if a panic leaves the function, the last one is that of a text with a NUL. -/
theorem C114_panics (W : Build) (x : Ctx) (p : Ptr) {k : Kind} (f : Fn k) (val : Val k) (err : ErrorPtr) (h : Heap) :
    (∀ v e h', f.call W x p val err h = .ret true v e h' → f.panics W x p h = []) ∧
    (∀ v e h', f.call W x p val err h = .ret false v e h' → e.errorType ≠ .panic → f.panics W x p h = []) ∧
    (∀ v e h', f.call W x p val err h = .ret false v e h' → e.errorType = .panic →
      f.panics W x p h = [x.panic] ∧ Reads W h' .error e (.panic, x.panic.message)) ∧
    (∀ h', f.call W x p val err h = .unwind h' → ∃ l s, '\x00' ∈ s ∧ f.panics W x p h = l ++ [toCstrPanic s] ∧
      (l = [] ∨ l = [x.panic] ∧ s = x.panic.message)) := by
  rw [C114_body, respond_result]
  unfold Fn.panics
  cases f.body W x p h with
  | ok a h1 => exact ⟨fun _ _ _ _ => rfl, nofun, nofun, nofun⟩
  | ub => exact ⟨nofun, nofun, nofun, nofun⟩
  | err e h1 =>
    simp only [settle, failed, guardPanics, toCstrPanics]
    by_cases hn : (0 : UInt8) ∈ Str.utf8 (e.display x.texts)
    · rw [if_pos hn, if_pos hn]
      exact ⟨nofun, nofun, nofun, fun _ _ => ⟨[], _, (nul_utf8 _).mp hn, rfl, .inl rfl⟩⟩
    · rw [if_neg hn, if_neg hn]
      refine ⟨nofun, fun _ _ _ _ _ => rfl, fun v e' h' hc ht => ?_, nofun⟩
      cases hc
      have := (C51_range e).2.2
      exact absurd (congrArg ErrorType.code ht) this
  | panic h1 =>
    simp only [settle, failed, guardPanics, toCstrPanics]
    by_cases hn : (0 : UInt8) ∈ Str.utf8 x.panic.message
    · rw [if_pos hn, if_pos hn]
      exact ⟨nofun, nofun, nofun, fun _ _ => ⟨[x.panic], _, (nul_utf8 _).mp hn, rfl, .inr ⟨rfl, rfl⟩⟩⟩
    · rw [if_neg hn, if_neg hn]
      refine ⟨nofun, fun v e' h' hc ht => ?_, fun v e' h' hc _ => ?_, nofun⟩
      · cases hc; exact absurd rfl ht
      · cases hc
        exact ⟨rfl, rfl, hn, h1.length, rfl, by simp [Live, textLayout]⟩

theorem log_silent (W : Build) (ops : List HOp) (s : State) : log W ops .silent s = [] := by
  induction ops generalizing s with
  | nil => rfl
  | cons op ops ih =>
    cases op with
    | init => exact ih s
    | op o =>
      simp only [log, Hook.prints, List.nil_append]
      cases s.step W o with
      | next s' => exact ih s'
      | _ => rfl

/-- C114: after `keychain_init_library` nothing is printed, whatever is called: all that a program prints it prints before. -/
theorem C114_quiet (W : Build) (before after : List HOp) (hook : Hook) (s : State) :
    log W (before ++ .init :: after) hook s = log W before hook s := by
  induction before generalizing s hook with
  | nil => exact log_silent W after s
  | cons op ops ih =>
    cases op with
    | init => exact ih _ s
    | op o =>
      simp only [List.cons_append, log]
      congr 1
      cases s.step W o with
      | next s' => exact ih hook s'
      | _ => rfl

/-- C114: before that a program prints the payload of each panic, those that end as errors too. -/
theorem C114_loud (W : Build) (ops : List HOp) (s : State) (k : Kind) (f : Fn k) (x : Ctx) (j : Nat) (val : Val k)
    (err : ErrorPtr) :
    ∃ rest, log W (.op (.call k f x j val err) :: ops) .standard s = f.panics W x (s.handle f.handle j) s.heap ++ rest ∧
      ∀ s', s.step W (.call k f x j val err) = .next s' → rest = log W ops .standard s' :=
  ⟨_, rfl, fun s' hs => by simp only [hs]⟩

/-- C114: so asking for a stored phrase with a NUL prints the phrase, and the printed payload determines it; not so after
`keychain_init_library`. -/
theorem C114_phrase (W : Build) (x : Ctx) (i : Nat) (M : Manager) (r : Rng) (s : State) (hl : Live s.heap i W.manager (.manager M r))
    (j : Nat) (hj : s.vars[j]? = some ⟨.manager, .to i⟩)
    (blob : Bytes) (pw : CText) (t : Str) (ht : Json.ofUtf8 pw.val = some t) (c : Content) (hH : KC.Spec.Wallet.Holds W.E blob t c)
    (m : Str) (l : Language) (hm : c.mnemonic = some m) (hlang : c.language = some l) (h0 : '\x00' ∈ m) (hx : x.panic = toCstrPanic m)
    (val : MnemonicInfoPtr) (err : ErrorPtr) :
    log W [.op (.call .info (.retrieve blob pw) x j val err)] .standard s = [toCstrPanic m] ∧
    (∀ m', toCstrPanic m' = toCstrPanic m → m' = m) ∧
    log W [.init, .op (.call .info (.retrieve blob pw) x j val err)] .standard s = [] := by
  obtain ⟨e, h', h1, h2⟩ := C111_retrieve W x i M r s.heap hl blob pw t ht c hH m l hm hlang h0 hx val err
  have hh : s.handle (Fn.retrieve blob pw).handle j = .to i := by
    unfold State.handle
    rw [hj]
    rfl
  have hp := ((C114_panics W x (.to i) (.retrieve blob pw) val err s.heap).2.2.1 _ _ _ h1 h2.1).1
  refine ⟨?_, fun m' h => C111_reveals m' m h, C114_quiet W [] _ .standard s⟩
  have : s.panics W (.op (.call .info (.retrieve blob pw) x j val err)) = [toCstrPanic m] := by
    show Fn.panics W x (s.handle (Fn.retrieve blob pw).handle j) (.retrieve blob pw) s.heap = _
    rw [hh, hp, hx]
  unfold log
  rw [this]
  cases s.step W (.call .info (.retrieve blob pw) x j val err) <;> rfl

/-! ### Non-vacuity -/

/-- A call with a null handle: without `keychain_init_library` the panic is printed, with it not; calls that fail with an error of the
library print nothing. -/
example : (log toyBuild [.op (.call .bool (.hasNetwork ⟨1⟩) toyCtx 0 false ⟨.panic, .null⟩), .init,
      .op (.call .bool (.hasNetwork ⟨1⟩) toyCtx 0 false ⟨.panic, .null⟩)] .standard ⟨[], []⟩).map PanicPayload.message =
      [toyCtx.panic.message] ∧
    (log toyBuild [.op (.call .path (.ethereumNew 0x80000000) toyCtx 0 ⟨0, 0, 0, 0, 0⟩ ⟨.panic, .null⟩)] .standard ⟨[], []⟩).map
      PanicPayload.message = [] := by
  decide +kernel

/-- Non-vacuity of `C114_phrase`: a wallet with a NUL in its phrase. -/
example : ∃ blob, log toyBuild [.op (.call .info (.retrieve blob ⟨[112], by decide⟩) { toyCtx with panic := toCstrPanic ['a', '\x00'] } 0
      ⟨.null, .english⟩ ⟨.keyError, .null⟩)] .standard ⟨oneManager, [⟨.manager, .to 0⟩]⟩ = [toCstrPanic ['a', '\x00']] := by
  obtain ⟨blob, r', hst⟩ := Manager.store_runs toyEnv forwards ⟨none, some ['a', '\x00'], some .english, NMap.ofList []⟩ ['p'] counting_delivers
  have hH := Manager.store_holds (E := toyEnv) toyAead_correct hst
  exact ⟨blob, (C114_phrase toyBuild _ 0 (toyManager [1, 2]) countingRng ⟨oneManager, [⟨.manager, .to 0⟩]⟩ rfl 0 rfl blob
    ⟨[112], by decide⟩ ['p'] (by decide +kernel) _ hH ['a', '\x00'] .english rfl rfl (by decide) rfl _ _).1⟩

end KC.Props
