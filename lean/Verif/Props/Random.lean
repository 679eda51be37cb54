import Verif.Props.Manager
import Verif.Props.Mnemonic
/-
C34 for the manager's operations, C54 (failing random source), C56 (generated phrases).
-/
namespace KC.Props
open KC.Manager KC.Spec KC.Spec.Wallet KC.Spec.Crypt KC.Crypt
open KC.Mnemonic (Language)

/-- The calls of a manager that use its random source. -/
inductive Call where
  | generate (language : Option Language)
  | fromSeed (itF : Iter (Network × Factory)) (itK : Iter (Network × Bytes)) (seed : Bytes) (password : Str)
  | fromMnemonic (itF : Iter (Network × Factory)) (itK : Iter (Network × Bytes)) (text password : Str) (language : Option Language)
  | change (blob : Bytes) (old new : Str)
  | add (itK : Iter (Network × Bytes)) (blob : Bytes) (password : Str) (n : Network)

/-- What they return. -/
inductive Out where
  | text (s : Str)
  | blob (b : Bytes)

/-- Apply a function to the result. -/
def RM.mapOk {ε α β : Type} (f : α → β) (x : RM ε α) : RM ε β := x >>= fun a => RM.lift (.ok (f a))

/-- The call on manager `M`. -/
def Call.prog (E : Env) (M : Manager) : Call → RM Error Out
  | .generate l => RM.mapOk .text (M.generateMnemonic E l)
  | .fromSeed itF itK s p => RM.mapOk .blob (M.keychainDataFromSeed E itF itK s p)
  | .fromMnemonic itF itK t p l => RM.mapOk .blob (M.keychainDataFromMnemonic E itF itK t p l)
  | .change b o n => RM.mapOk .blob (changePassword E b o n)
  | .add it b p n => RM.mapOk .blob (M.addNetwork E it b p n)

/-- A call either ends at once without success, or encrypts, or is a phrase generation. -/
theorem call_shape (E : Env) (M : Manager) (c : Call) :
    (∃ x, c.prog E M = .ret x ∧ ∀ o, x ≠ .ok o) ∨
    (∃ data pw, data ≠ [] ∧ c.prog E M = RM.mapOk .blob (encrypt E.H E.A data pw)) ∨
    (∃ l, M.seedSize ∈ [96, 128, 160, 192, 224, 256] ∧ ∃ k, c.prog E M = .draw (M.seedSize / 8) k ∧
      ∀ b, b.length = M.seedSize / 8 → ∃ text, Mnemonic.mnemonicFromEntropy E.H b l = .ok text ∧ k b = .ret (.ok (.text text))) := by
  have lift : ∀ {x : RM Error Bytes}, ((∃ y, x = .ret y ∧ ∀ o, y ≠ .ok o) ∨ ∃ data pw, data ≠ [] ∧ x = encrypt E.H E.A data pw) →
      (∃ y, RM.mapOk Out.blob x = .ret y ∧ ∀ o, y ≠ .ok o) ∨
      (∃ data pw, data ≠ [] ∧ RM.mapOk Out.blob x = RM.mapOk .blob (encrypt E.H E.A data pw)) := by
    rintro x (⟨y, rfl, hy⟩ | ⟨data, pw, hd, rfl⟩)
    · left
      cases y with
      | ok b => exact absurd rfl (hy b)
      | err e => exact ⟨.err e, rfl, nofun⟩
      | panic => exact ⟨.panic, rfl, nofun⟩
    · exact .inr ⟨data, pw, hd, rfl⟩
  have new : ∀ itF itK s p m l, ((∃ y, M.newKeychainData E itF itK s p m l = .ret y ∧ ∀ o, y ≠ .ok o) ∨
      ∃ data pw, data ≠ [] ∧ M.newKeychainData E itF itK s p m l = encrypt E.H E.A data pw) := by
    intro itF itK s p m l
    unfold newKeychainData
    cases M.seedFromData E s m l with
    | err e => exact .inl ⟨_, rfl, nofun⟩
    | panic => exact .inl ⟨_, rfl, nofun⟩
    | ok seed =>
      rw [RM.lift_ok_bind]
      generalize (List.mapM _ _ : Res Error (List (Network × Bytes))) = y
      cases y with
      | err e => exact .inl ⟨_, rfl, nofun⟩
      | panic => exact .inl ⟨_, rfl, nofun⟩
      | ok keys => exact .inr ⟨_, _, toBytes_ne_nil _, rfl⟩
  cases c with
  | generate l =>
    by_cases hs : M.seedSize ∈ [96, 128, 160, 192, 224, 256]
    · refine .inr (.inr ⟨l.getD .english, hs, ?_⟩)
      obtain ⟨t, ht, hts⟩ : ∃ t, Bip39.MType.fromEntropySize M.seedSize = .ok t ∧ t.toKeySize = M.seedSize := by
        simp only [List.mem_cons, List.not_mem_nil, or_false] at hs
        rcases hs with h | h | h | h | h | h <;> rw [h]
        exacts [⟨.w9, rfl, rfl⟩, ⟨.w12, rfl, rfl⟩, ⟨.w15, rfl, rfl⟩, ⟨.w18, rfl, rfl⟩, ⟨.w21, rfl, rfl⟩, ⟨.w24, rfl, rfl⟩]
      obtain ⟨a1, a2, a3, a4⟩ := Bip39.type_arith t
      show ∃ k, RM.mapOk _ (generateMnemonic E M l) = _ ∧ _
      unfold generateMnemonic Mnemonic.generateEntropy
      rw [ht]
      refine ⟨_, by rw [← hts]; rfl, fun b hb => ?_⟩
      obtain ⟨bytes, text, m, seed, e1, -, e2, -⟩ := C15_generate E.H M.seedSize (l.getD .english)
        ⟨fun i => b.getD i 0, fun _ => false, 0, 0, false⟩ [] hs rfl rfl
      have : bytes = b := by
        rw [e1]
        apply List.ext_getElem
        · simp [hb]
        · intro i h1 h2
          simp [h2]
      subst this
      refine ⟨text, e2, ?_⟩
      have hg : Bip39.Entropy.generate t bytes = some ⟨t, bytes, by omega⟩ := dif_pos (by omega)
      show RM.bind (RM.mapErr _ (RM.bind (RM.bind (RM.lift (Res.ofPanic (Bip39.Entropy.generate t bytes))) fun e =>
        RM.lift (.ok e.bytes)) fun ent => RM.lift (Mnemonic.mnemonicFromEntropy E.H ent _))) _ = _
      rw [hg]
      show RM.bind (RM.mapErr _ (RM.lift (Mnemonic.mnemonicFromEntropy E.H bytes _))) _ = _
      rw [e2]; rfl
    · left
      refine ⟨.err (.mnemonicError (.invalidEntropySize M.seedSize)), ?_, nofun⟩
      show RM.mapOk _ (generateMnemonic E M l) = _
      unfold generateMnemonic Mnemonic.generateEntropy
      rw [(C07_entropy_size _).2 hs]; rfl
  | fromSeed itF itK s p => rcases lift (new itF itK (some s) p none none) with h | h <;> [exact .inl h; exact .inr (.inl h)]
  | fromMnemonic itF itK t p l =>
    rcases lift (new itF itK none p (some t) (some (l.getD .english))) with h | h <;> [exact .inl h; exact .inr (.inl h)]
  | change b o n =>
    have : ((∃ y, changePassword E b o n = .ret y ∧ ∀ o, y ≠ .ok o) ∨
        ∃ data pw, data ≠ [] ∧ changePassword E b o n = encrypt E.H E.A data pw) := by
      unfold changePassword
      cases hd : decrypt E.H E.A b o with
      | err e => exact .inl ⟨_, rfl, nofun⟩
      | panic => exact .inl ⟨_, rfl, nofun⟩
      | ok d => exact .inr ⟨d, n, (C33_length _ _ _ _ _ hd).2, rfl⟩
    rcases lift this with h | h <;> [exact .inl h; exact .inr (.inl h)]
  | add it b p n =>
    have : ((∃ y, M.addNetwork E it b p n = .ret y ∧ ∀ o, y ≠ .ok o) ∨
        ∃ data pw, data ≠ [] ∧ M.addNetwork E it b p n = encrypt E.H E.A data pw) := by
      unfold addNetwork
      cases M.factories.get n with
      | none => exact .inl ⟨_, rfl, nofun⟩
      | some f =>
        cases keychainDataFromBytes E b p with
        | err e => exact .inl ⟨_, rfl, nofun⟩
        | panic => exact .inl ⟨_, rfl, nofun⟩
        | ok w =>
          simp only [Res.okOr, RM.lift_ok_bind]
          split
          · exact .inl ⟨_, rfl, nofun⟩
          · cases M.seedFromData E w.seed w.mnemonic w.dictionary with
            | err e => exact .inl ⟨_, rfl, nofun⟩
            | panic => exact .inl ⟨_, rfl, nofun⟩
            | ok s =>
              rw [RM.lift_ok_bind]
              cases f.keyDataFromSeed s with
              | err e => exact .inl ⟨_, rfl, nofun⟩
              | panic => exact .inl ⟨_, rfl, nofun⟩
              | ok d => exact .inr ⟨_, _, toBytes_ne_nil _, rfl⟩
    rcases lift this with h | h <;> [exact .inl h; exact .inr (.inl h)]

theorem follows_mapOk_encrypt {E : Env} {stream : Nat → UInt8} {data : Bytes} {pw : Str} {ds : List Draw} {o : Out}
    (h : RM.Follows stream (RM.mapOk Out.blob (encrypt E.H E.A data pw : RM Error Bytes)) ds (.ret (.ok o))) :
    ∃ d e, ds = [d, e] ∧ d.len = 32 ∧ e.len = 12 ∧ ∃ b tag ct, o = .blob b ∧
      Parts b (seg stream d.pos 32) (seg stream e.pos 12) tag ct := by
  rw [encrypt_eq] at h
  unfold RM.mapOk at h
  cases h with
  | cons n k d ds q h1 hf =>
  cases hf with
  | cons n k e ds q h2 hf =>
  cases hf with
  | nil => exact ⟨d, e, rfl, h1, h2, _, _, _, rfl, sealed_parts E.H E.A data pw _ _ (by simp) (by simp)⟩

/-- C34 for managers: calls on one manager from any threads under any schedule.  A finished call that gave a blob made two
draws, which are its salt and nonce; one that gave a phrase made one draw, which is the phrase's entropy. -/
theorem C34_manager (E : Env) (M : Manager) (r : Rng) (calls : Nat → List Call) (sched : List Nat) (t i : Nat) (o : Out)
    (hdone : (t, i, .ok o) ∈ ((Sys.start r fun t => (calls t).map (Call.prog E M)).exec sched).done) :
    (∃ b p q tag ct, o = .blob b ∧ p + 32 ≤ q ∧
      ((Sys.start r fun t => (calls t).map (Call.prog E M)).exec sched).log.filter (fun d => d.thread = t ∧ d.op = i) =
        [⟨t, i, p, 32⟩, ⟨t, i, q, 12⟩] ∧
      Parts b (seg r.stream p 32) (seg r.stream q 12) tag ct) ∨
    (∃ text p l m, o = .text text ∧
      ((Sys.start r fun t => (calls t).map (Call.prog E M)).exec sched).log.filter (fun d => d.thread = t ∧ d.op = i) =
        [⟨t, i, p, M.seedSize / 8⟩] ∧
      Bip39.Mnemonics.fromString (Language.toDict l) text = .ok m ∧
      Carries E.H.sha256 m.idx (seg r.stream p (M.seedSize / 8))) := by
  have inv := Sys.inv_exec r (fun t => (calls t).map (Call.prog E M)) sched
  obtain ⟨-, p, hp, hf⟩ := inv.fin _ hdone
  dsimp only at hp hf
  rw [List.getElem?_map, Option.map_eq_some_iff] at hp
  obtain ⟨c, -, rfl⟩ := hp
  have hf : RM.Follows r.stream (c.prog E M)
      (Sys.drawsOf ((Sys.start r fun t => (calls t).map (Call.prog E M)).exec sched).log t i) (.ret (.ok o)) := by
    rcases hf with hf | hf
    · cases hf
    · exact hf
  have hd := inv.disj.filter (p := fun d => decide (d.thread = t ∧ d.op = i))
  have hm : ∀ d ∈ Sys.drawsOf ((Sys.start r fun t => (calls t).map (Call.prog E M)).exec sched).log t i,
      d.thread = t ∧ d.op = i := by
    intro d hd
    simpa using (List.mem_filter.mp hd).2
  unfold Sys.drawsOf at hf hm
  generalize ((Sys.start r fun t => (calls t).map (Call.prog E M)).exec sched).log.filter
    (fun d => d.thread = t ∧ d.op = i) = ds at *
  rcases call_shape E M c with ⟨x, hx, hno⟩ | ⟨data, pw, -, hx⟩ | ⟨l, hs, k, hx, hk⟩
  · rw [hx] at hf
    cases hf
    exact absurd rfl (hno o)
  · rw [hx] at hf
    obtain ⟨d, e, rfl, h1, h2, b, tag, ct, rfl, hP⟩ := follows_mapOk_encrypt hf
    obtain ⟨t1, i1, p, n1⟩ := d
    obtain ⟨t2, i2, q, n2⟩ := e
    obtain ⟨rfl, rfl⟩ := hm _ (List.mem_cons_self ..)
    obtain ⟨rfl, rfl⟩ := hm ⟨t2, i2, q, n2⟩ (by simp)
    dsimp only at h1 h2
    subst h1 h2
    exact .inl ⟨b, p, q, tag, ct, rfl, by simpa using hd, rfl, hP⟩
  · rw [hx] at hf
    cases hf with
    | cons n k d ds q h1 hf =>
    obtain ⟨text, e1, e2⟩ := hk (seg r.stream d.pos (M.seedSize / 8)) (by simp)
    rw [e2] at hf
    cases hf with
    | nil =>
    obtain ⟨t1, i1, p, n1⟩ := d
    obtain ⟨rfl, rfl⟩ := hm _ (List.mem_cons_self ..)
    dsimp only at h1
    subst h1
    obtain ⟨bytes, text', m, seed, q1, -, q2, q3, q4, -⟩ := C15_generate E.H M.seedSize l
      ⟨r.stream, fun _ => false, p, 0, false⟩ [] hs rfl rfl
    have : bytes = seg r.stream p (M.seedSize / 8) := q1
    subst this
    rw [e1] at q2
    cases q2
    exact .inr ⟨text, p, l, m, rfl, rfl, q3, q4⟩

/-- C34 for managers: a call that returned an error used no randomness. -/
theorem C34_error_draws_nothing (E : Env) (M : Manager) (r : Rng) (c : Call) (e : Error) (r' : Rng)
    (h : (c.prog E M).run r = (.err e, r')) : r' = r := by
  rcases call_shape E M c with ⟨x, hx, hno⟩ | ⟨data, pw, -, hx⟩ | ⟨l, hs, k, hx, hk⟩
  · rw [hx] at h; cases h; rfl
  · rw [hx, encrypt_eq] at h
    simp only [RM.mapOk, Bind.bind, RM.bind, RM.run, RM.lift] at h
    rcases h1 : r.fill 32 with ⟨_ | salt, r1⟩
    · rw [h1] at h; cases h
    rw [h1] at h
    rcases h2 : r1.fill 12 with ⟨_ | nonce, r2⟩
    · simp only [h2] at h; cases h
    · simp only [h2] at h; cases h
  · rw [hx] at h
    simp only [RM.run] at h
    rcases h1 : r.fill (M.seedSize / 8) with ⟨_ | b, r1⟩
    · rw [h1] at h; cases h
    · obtain ⟨-, -, hb, -⟩ := fill_ok h1
      obtain ⟨text, -, hk⟩ := hk b (by rw [hb, seg_length])
      rw [h1] at h
      simp only [hk, RM.run] at h
      cases h

/-! ### C54 -/

theorem poisoned_fill {r : Rng} (h : r.poisoned = true) (n : Nat) : r.fill n = (none, r) := by
  rw [Rng.fill, if_pos h]

/-- C54: the lock gets poisoned only by a failure of the source, which ends the call in a panic. -/
theorem C54_failure {ε α} (x : RM ε α) (r : Rng) (h0 : r.poisoned = false) (h : (x.run r).2.poisoned = true) :
    (x.run r).1 = .panic ∧ ∃ n, r.calls ≤ n ∧ r.fails n = true := by
  induction x generalizing r with
  | ret x => rw [RM.run, h0] at h; cases h
  | draw n k ih =>
    simp only [RM.run] at h ⊢
    by_cases hf : r.fails r.calls = true
    · have : r.fill n = (none, { r with calls := r.calls + 1, poisoned := true }) := by
        rw [Rng.fill, if_neg (by rw [h0]; simp), if_pos hf]
      rw [this]
      exact ⟨rfl, r.calls, Nat.le_refl _, hf⟩
    · rw [fill_healthy n h0 (by simpa using hf)] at h ⊢
      dsimp only at h ⊢
      obtain ⟨a, m, b, c⟩ := ih _ { r with pos := r.pos + n, calls := r.calls + 1 } h0 h
      exact ⟨a, m, by simp only at b; omega, c⟩

/-- C54: and a failure of the source during a call does poison it. -/
theorem C54_poisons {ε α} (n : Nat) (k : Bytes → RM ε α) (r : Rng) (h0 : r.poisoned = false) (hf : r.fails r.calls = true) :
    ((RM.draw n k).run r).1 = .panic ∧ ((RM.draw n k).run r).2.poisoned = true := by
  have : r.fill n = (none, { r with calls := r.calls + 1, poisoned := true }) := by
    rw [Rng.fill, if_neg (by rw [h0]; simp), if_pos hf]
  simp only [RM.run, this]
  exact ⟨trivial, trivial⟩

/-- C54: with a poisoned lock a call panics exactly if it would have succeeded, and gives the same error otherwise; the state
stays. -/
theorem C54_poisoned (E : Env) (M : Manager) (c : Call) (r r0 : Rng) (h : r.poisoned = true) (h0 : Delivers r0) :
    ((∃ o, ((c.prog E M).run r0).1 = .ok o) → (c.prog E M).run r = (.panic, r)) ∧
    (∀ e, ((c.prog E M).run r0).1 = .err e → (c.prog E M).run r = (.err e, r)) ∧
    (((c.prog E M).run r0).1 = .panic → (c.prog E M).run r = (.panic, r)) := by
  rcases call_shape E M c with ⟨x, hx, hno⟩ | ⟨data, pw, -, hx⟩ | ⟨l, hs, k, hx, hk⟩
  · rw [hx]
    refine ⟨?_, fun e he => ?_, fun he => ?_⟩
    · rintro ⟨o, ho⟩; exact absurd ho (hno o)
    · rw [show x = .err e from he]; rfl
    · rw [show x = .panic from he]; rfl
  · have e1 : (c.prog E M).run r = (.panic, r) := by
      rw [hx, encrypt_eq]
      simp only [RM.mapOk, Bind.bind, RM.bind, RM.run, poisoned_fill h]
    obtain ⟨blob, r', he⟩ := C32_succeeds (ε := Error) E.H E.A data pw r0 h0.1 h0.2.1 h0.2.2
    have e2 : ((c.prog E M).run r0).1 = .ok (.blob blob) := by
      rw [hx, RM.mapOk, RM.run_bind, he]; rfl
    exact ⟨fun _ => e1, fun e he => (by rw [e2] at he; cases he), fun he => (by rw [e2] at he; cases he)⟩
  · have e1 : (c.prog E M).run r = (.panic, r) := by
      rw [hx]
      simp only [RM.run, poisoned_fill h]
    obtain ⟨text, -, hk⟩ := hk (seg r0.stream r0.pos (M.seedSize / 8)) (by simp)
    have e2 : ((c.prog E M).run r0).1 = .ok (.text text) := by
      rw [hx]
      simp only [RM.run, fill_healthy _ h0.1 h0.2.1, hk]
    exact ⟨fun _ => e1, fun e he => (by rw [e2] at he; cases he), fun he => (by rw [e2] at he; cases he)⟩

/-- Calls one after the other on a manager. -/
def runCalls (E : Env) (M : Manager) : List Call → Rng → List (Res Error Out) × Rng
  | [], r => ([], r)
  | c :: cs, r =>
    let (x, r') := (c.prog E M).run r
    let (xs, r'') := runCalls E M cs r'
    (x :: xs, r'')

/-- C54: histories.  Once a call has left the lock poisoned, all later calls fail, and each one panics that would succeed on a
fresh manager; before, nothing is poisoned. -/
theorem C54_history (E : Env) (M : Manager) (before : List Call) (c : Call) (after : List Call) (r r0 : Rng)
    (hr : (runCalls E M before r).2.poisoned = false)
    (hp : ((c.prog E M).run (runCalls E M before r).2).2.poisoned = true) (h0 : Delivers r0) :
    (runCalls E M (before ++ c :: after) r).1 = (runCalls E M before r).1 ++ .panic ::
      after.map (fun c => match ((c.prog E M).run r0).1 with
        | .ok _ => .panic
        | x => x) ∧
    (runCalls E M (before ++ c :: after) r).2.poisoned = true := by
  have append : ∀ (as bs : List Call) (r : Rng), runCalls E M (as ++ bs) r =
      ((runCalls E M as r).1 ++ (runCalls E M bs (runCalls E M as r).2).1, (runCalls E M bs (runCalls E M as r).2).2) := by
    intro as bs
    induction as with
    | nil => intro r; simp [runCalls]
    | cons a as ih => intro r; simp [runCalls, ih]
  have stuck : ∀ (cs : List Call) (r : Rng), r.poisoned = true → runCalls E M cs r =
      (cs.map (fun c => match ((c.prog E M).run r0).1 with
        | .ok _ => .panic
        | x => x), r) := by
    intro cs r hr
    induction cs with
    | nil => rfl
    | cons c cs ih =>
      obtain ⟨p1, p2, p3⟩ := C54_poisoned E M c r r0 hr h0
      cases hx : ((c.prog E M).run r0).1 with
      | ok o => simp only [runCalls, p1 ⟨o, hx⟩, ih, List.map_cons, hx]
      | err e => simp only [runCalls, p2 e hx, ih, List.map_cons, hx]
      | panic => simp only [runCalls, p3 hx, ih, List.map_cons, hx]
  rw [append]
  have e1 := (C54_failure _ _ hr hp).1
  simp only [runCalls]
  rw [stuck after _ hp, e1]
  exact ⟨rfl, hp⟩

/-- C54: threads.  Once the lock is poisoned, under any further schedule no thread gets any randomness. -/
theorem C54_threads {ε α} (s : Sys ε α) (sched : List Nat) (h : s.rng.poisoned = true) :
    (s.exec sched).rng = s.rng ∧ (s.exec sched).log = s.log := by
  induction sched generalizing s with
  | nil => exact ⟨rfl, rfl⟩
  | cons t ts ih =>
    have hst : (s.step t).rng = s.rng ∧ (s.step t).log = s.log := by
      unfold Sys.step
      split
      · exact ⟨rfl, rfl⟩
      · exact ⟨rfl, rfl⟩
      · rw [poisoned_fill h]
        exact ⟨rfl, rfl⟩
    obtain ⟨a, b⟩ := ih (s.step t) (by rw [hst.1]; exact h)
    exact ⟨a.trans hst.1, b.trans hst.2⟩

/-- A source that fails at its second call. -/
def brokenRng : Rng := ⟨fun _ => 0, fun n => n == 1, 0, 0, false⟩

/-- Non-vacuity of C54: the source fails inside an encryption (at the nonce); the next encryption panics, a bad seed is still
reported. -/
example : (runCalls toyEnv (toyManager [1]) [.fromSeed forwards forwards (List.replicate 64 1) [], .generate none,
      .fromSeed forwards forwards [] []] brokenRng).1 = [.panic, .panic, .err (.invalidSeedSize 0)] := by
  obtain ⟨h1, -⟩ := C54_history toyEnv (toyManager [1]) [] (.fromSeed forwards forwards (List.replicate 64 1) [])
    [.generate none, .fromSeed forwards forwards [] []] brokenRng countingRng rfl (by decide +kernel) counting_delivers
  obtain ⟨text, r', -, hg⟩ : ∃ text r', True ∧ ((Call.generate none).prog toyEnv (toyManager [1])).run countingRng = (.ok (.text text), r') := by
    obtain ⟨bytes, text, m, seed, q1, q2, q3, -⟩ := C15_generate toyEnv.H 128 .english countingRng [] (by decide) rfl rfl
    refine ⟨text, { countingRng with pos := countingRng.pos + 128 / 8, calls := countingRng.calls + 1 }, trivial, ?_⟩
    show (RM.mapOk _ (generateMnemonic _ _ _)).run _ = _
    unfold generateMnemonic
    rw [RM.mapOk, RM.run_bind, RM.run_mapErr, RM.run_bind, show (toyManager [1]).seedSize = 128 from rfl, q2]
    simp only [RM.run_lift, Option.getD, q3, Res.mapErr]
  have hs : ((Call.fromSeed forwards forwards [] []).prog toyEnv (toyManager [1])).run countingRng =
      (.err (.invalidSeedSize 0), countingRng) := rfl
  simp only [List.map_cons, List.map_nil, hg, hs] at h1
  exact h1

/-! ### C56 -/

/-- C56: what `generate_mnemonic` returns is a phrase of the language and of the manager's length, carrying exactly the drawn
bytes, and the same manager makes a wallet from it. -/
theorem C56_generated (E : Env) (M : Manager) (lang : Option Language) (r r' : Rng) (text : Str)
    (h : (M.generateMnemonic E lang).run r = (.ok text, r')) :
    Phrase M.seedSize (lang.getD .english) text ∧
    r' = { r with pos := r.pos + M.seedSize / 8, calls := r.calls + 1 } ∧
    (∃ m, Bip39.Mnemonics.fromString (Language.toDict (lang.getD .english)) text = .ok m ∧
      Carries E.H.sha256 m.idx (seg r.stream r.pos (M.seedSize / 8))) ∧
    (Delivers r' → (∀ n f, M.getKeyFactory n = some f → ∃ d, f.keyDataFromSeed (phraseSeed E.H text) = .ok d) →
      ∀ itF itK pw, ∃ blob r'', (M.keychainDataFromMnemonic E itF itK text pw lang).run r' = (.ok blob, r'')) := by
  have hs : M.seedSize ∈ [96, 128, 160, 192, 224, 256] := by
    by_contra hs
    unfold generateMnemonic at h
    rw [RM.run_mapErr, RM.run_bind, C15_bad_size _ _ hs] at h
    cases h
  have hr : r.poisoned = false ∧ r.fails r.calls = false := by
    by_contra hr
    have hfill : ∀ n, ∃ r1, r.fill n = (none, r1) := by
      intro n
      unfold Rng.fill
      by_cases hp : r.poisoned = true
      · exact ⟨_, if_pos hp⟩
      · rw [if_neg hp]
        by_cases hf : r.fails r.calls = true
        · exact ⟨_, if_pos hf⟩
        · exact absurd ⟨by simpa using hp, by simpa using hf⟩ hr
    obtain ⟨t, ht⟩ := (show ∃ t, Bip39.MType.fromEntropySize M.seedSize = .ok t by
      simp only [List.mem_cons, List.not_mem_nil, or_false] at hs
      rcases hs with h | h | h | h | h | h <;> rw [h] <;> exact ⟨_, rfl⟩)
    obtain ⟨r1, h1⟩ := hfill (t.toKeySize / 8)
    simp only [generateMnemonic, Mnemonic.generateEntropy, RM.run_mapErr, RM.run_bind, RM.run_lift, ht, Res.mapErr, RM.run_fill,
      h1] at h
    cases h
  obtain ⟨bytes, text', m, seed, q1, q2, q3, q4, q5, q6⟩ := C15_generate E.H M.seedSize (lang.getD .english) r [] hs hr.1 hr.2
  unfold generateMnemonic at h
  rw [RM.run_mapErr, RM.run_bind, q2] at h
  simp only [RM.run_lift, q3, Res.mapErr, Prod.mk.injEq, Res.ok.injEq] at h
  obtain ⟨rfl, rfl⟩ := h
  have hp : Phrase M.seedSize (lang.getD .english) text' :=
    (C13_outcome E.H [] M.seedSize (lang.getD .english) text').2.1 ⟨seed, q6⟩
  exact ⟨hp, rfl, ⟨m, q4, (show bytes = seg r.stream r.pos (M.seedSize / 8) from q1) ▸ q5⟩, fun hd hk itF itK pw => C41_from_mnemonic_succeeds E itF itK M text' pw lang _ hd hp hk⟩

/-- C56: it succeeds whenever the source delivers and the manager's seed size is one of BIP-39 (also 96); for the built-in
networks it always is. -/
theorem C56_succeeds (E : Env) (M : Manager) (lang : Option Language) (r : Rng) (hr : Delivers r)
    (hs : M.seedSize ∈ [96, 128, 160, 192, 224, 256]) :
    ∃ text r', (M.generateMnemonic E lang).run r = (.ok text, r') := by
  obtain ⟨bytes, text, m, seed, q1, q2, q3, -⟩ := C15_generate E.H M.seedSize (lang.getD .english) r [] hs hr.1 hr.2.1
  refine ⟨text, { r with pos := r.pos + M.seedSize / 8, calls := r.calls + 1 }, ?_⟩
  unfold generateMnemonic
  rw [RM.run_mapErr, RM.run_bind, q2]
  simp only [RM.run_lift, q3, Res.mapErr]

/-- C56: with factories whose bounds are no BIP-39 size the manager exists but cannot generate. -/
theorem C56_other_sizes (E : Env) (M : Manager) (lang : Option Language) (r : Rng)
    (hs : M.seedSize ∉ [96, 128, 160, 192, 224, 256]) :
    (M.generateMnemonic E lang).run r = (.err (.mnemonicError (.invalidEntropySize M.seedSize)), r) := by
  unfold generateMnemonic
  rw [RM.run_mapErr, RM.run_bind, C15_bad_size _ _ hs]; rfl

example : ∃ text r', ((toyManager [1]).generateMnemonic toyEnv none).run countingRng = (.ok text, r') :=
  C56_succeeds _ _ _ _ counting_delivers (by decide)
example : ∃ M, withFactoryObjs 65535 [boundsFactory 1 100 256] = .ok M ∧ M.seedSize ∉ [96, 128, 160, 192, 224, 256] :=
  ⟨_, rfl, by decide⟩

/-- Non-vacuity of `C34_manager`: two threads, one generating, one creating, interleaved. -/
example : (((Sys.start countingRng fun t => ((if t = 0 then [Call.generate none] else
      if t = 1 then [.fromSeed forwards forwards (List.replicate 64 1) []] else []).map (Call.prog toyEnv (toyManager [1])))).exec
        [1, 0, 1, 1, 0]).done.map fun x => (x.1, x.2.1, x.2.2.isOk)) = [(1, 0, true), (0, 0, true)] := by decide +kernel

end KC.Props
