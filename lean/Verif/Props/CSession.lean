import Verif.Proofs.CSession
import Verif.Proofs.Telling
import Verif.Spec.CSession
/-
C69: whole programs through the C interface.
-/
namespace KC.Props
open KC.C KC.Spec.C

/-- The invariant behind `C69_handles`. -/
def Known (W : Build) (s : State) : Prop := ∀ v ∈ s.vars, ∀ c, Reads W s.heap v.kind v.val c → Origin W v.kind c

/-- Deleted handles stand for nothing. -/
theorem origin_gone {W : Build} {h : Heap} {k : Kind} {v : Val k} {c : Content k} (hg : Gone h k v) (hr : Reads W h k v c) : Origin W k c := by
  cases k with
  | manager => obtain ⟨i, hi, -⟩ := hr; rw [show v = .null from hg] at hi; cases hi
  | keychain => obtain ⟨i, hi, -⟩ := hr; rw [show v = .null from hg] at hi; cases hi
  | _ => trivial

theorem origin_same {W : Build} {h : Heap} {k : Kind} {v : Val k} {c c' c'' : Content k} (ho : Origin W k c) (hs : Same k c c'')
    (h1 : Reads W h k v c'') (h2 : Reads W h k v c') : Origin W k c' := by
  cases k with
  | manager =>
    have e := reads_manager_inj h1 h2; subst e
    show Manager.new W.umax W.all = .ok c''.1
    rw [← hs.1]; exact ho
  | keychain =>
    have e := reads_keychain_inj h1 h2; subst e
    have hs : c = c'' := hs
    rw [← hs]; exact ho
  | _ => trivial

/-- The result of a call has the right origin if its handle has. -/
theorem origin_lib {W : Build} {x : Ctx} {t : Target} {k : Kind} {f : Fn k} {r : Rng} {c : Content k}
    (hm : ∀ m r, t = .manager m r → Manager.new W.umax W.all = .ok m) (h : ((f.lib W x t).run r).1 = .ok c) : Origin W k c := by
  cases f with
  | managerNew r' =>
    have h : (Manager.new W.umax W.all).map (fun m => (m, r')) = .ok c := h
    rw [Res.map_eq_ok] at h
    obtain ⟨m, h1, rfl⟩ := h
    exact h1
  | «open» d pw =>
    cases t with
    | manager m r' =>
      have h : ((decode pw fun pw => .ret (m.keychainFromData W.E x.keys d pw)).run r).1 = .ok c := h
      unfold decode at h
      split at h
      · exact ⟨m, x.keys, d, _, hm m r' rfl, h⟩
      · cases h
    | _ => cases h
  | _ => trivial

theorem known_step {W : Build} {s s' : State} (hs : Sound W s) (hk : Known W s) {op : Op} (ha : Allowed s op) (hst : s.step W op = .next s') :
    Known W s' := by
  have old : ∀ j v, Spares j op → s.vars[j]? = some v → ∀ c, Reads W s'.heap v.kind v.val c → Origin W v.kind c := by
    intro j v hj hv c hc
    obtain ⟨-, h2, h3⟩ := C52_kept W s s' hs op ha hst j hj v hv
    rcases hs.held v (List.mem_of_getElem? hv) with ⟨c0, h0⟩ | hg
    · obtain ⟨c1, h4, h5⟩ := h2 c0 h0
      exact origin_same (hk v (List.mem_of_getElem? hv) c0 h0) h5 h4 hc
    · exact origin_gone (h3 hg) hc
  cases op with
  | call k f x j val err =>
    obtain ⟨t, ht⟩ := sound_names hs f j
    have hm : ∀ m r, t = .manager m r → Manager.new W.umax W.all = .ok m := by
      intro m r e
      obtain ⟨p, h1, h2⟩ := (names_var ht).2 m r e
      exact hk _ (List.mem_of_getElem? h1) (m, r) h2
    rcases step_new ht hst with ⟨c, v, e, h1, h2⟩ | ⟨e, ty, txt, e', h1⟩
    · intro u hu cu hcu
      rw [e, List.mem_append] at hu
      rcases hu with hu | hu
      · obtain ⟨i, hi⟩ := List.mem_iff_getElem?.mp hu
        exact old i u trivial hi cu hcu
      · cases List.mem_singleton.mp hu
        exact origin_same (origin_lib hm h1) (Same.refl _) h2 hcu
    · intro u hu cu hcu
      rw [e', List.mem_append] at hu
      rcases hu with hu | hu
      · obtain ⟨i, hi⟩ := List.mem_iff_getElem?.mp hu
        exact old i u trivial hi cu hcu
      · cases List.mem_singleton.mp hu
        trivial
  | delete j =>
    cases hv : s.vars[j]? with
    | none =>
      simp only [State.step, hv] at hst
      cases hst
      exact hk
    | some w =>
      obtain ⟨s1, h1, -, -, v', h2, h3⟩ := sound_delete hs hv ha
      rw [hst] at h1
      cases h1
      intro u hu cu hcu
      obtain ⟨i, hi⟩ := List.mem_iff_getElem?.mp hu
      rw [h2, List.getElem?_set] at hi
      split at hi
      · rename_i e
        subst e
        split at hi
        · cases hi; exact origin_gone h3 hcu
        · cases hi
      · rename_i e
        exact old i u (by exact e) hi cu hcu

theorem known_run {W : Build} (ops : List Op) {s s' : State} (hs : Sound W s) (hk : Known W s) (hf : Follows W ops s)
    (hr : s.run W ops = .next s') : Sound W s' ∧ Known W s' := by
  induction ops generalizing s with
  | nil => cases hr; exact ⟨hs, hk⟩
  | cons op ops ih =>
    rcases sound_step hs op hf.1 with ⟨s1, h1, h2⟩ | h
    · simp only [State.run, h1] at hr
      exact ih h2 (known_step hs hk hf.1 h1) (hf.2 s1 h1) hr
    · simp only [State.run, h] at hr
      cases hr

theorem start {W : Build} : Sound W ⟨[], []⟩ ∧ Known W ⟨[], []⟩ :=
  ⟨⟨nofun, List.nodup_nil, fun i => by simp [State.owned]⟩, nofun⟩

/-- C69: in every history of a program that follows the rule, a live manager handle is a manager of all networks of the build, and a live
keychain handle is a keychain such a manager opened. -/
theorem C69_handles (W : Build) (ops : List Op) (hf : Follows W ops ⟨[], []⟩) (s : State) (hr : State.run W ops ⟨[], []⟩ = .next s) :
    ∀ v ∈ s.vars, ∀ c, Reads W s.heap v.kind v.val c → Origin W v.kind c :=
  (known_run ops start.1 start.2 hf hr).2

/-- Handles of a program with the built-in networks quote nothing from outside and have errors that tell. -/
theorem handle_quiet {H : Hashes} {C : Secp.Curve} {Ed : Cardano.Ed} {W : Build} {ca eth btc : Bool}
    (hW : W.all = allNetworks H C Ed ca eth btc) {s : State} (hk : Known W s) {j : Nat} {o : Option Kind} {t : Target}
    (ht : Names W s.heap (s.handle o j) o t) : t.Quiet ∧ t.Telling := by
  have hb : ∀ M, Manager.new W.umax W.all = .ok M → BuiltIn H C Ed M := fun M h => ⟨W.umax, ca, eth, btc, .inl (hW ▸ h)⟩
  cases t with
  | none => exact ⟨trivial, trivial⟩
  | null => exact ⟨trivial, trivial⟩
  | keychain kc =>
    obtain ⟨p, h1, h2⟩ := (names_var ht).1 kc rfl
    obtain ⟨M, it, blob, pw, h3, h4⟩ := hk _ (List.mem_of_getElem? h1) kc h2
    have q : (Target.manager M ⟨fun _ => 0, fun _ => false, 0, 0, false⟩).Telling := by
      intro n f hf
      rcases (hb M h3).factory hf with ⟨-, rfl⟩ | ⟨-, rfl⟩ | ⟨-, rfl⟩
      · exact cardano_factory_telling ..
      · exact ethereum_factory_telling ..
      · exact bitcoin_factory_telling ..
    exact ⟨C50_opened_quiet W.E it M ⟨fun _ => 0, fun _ => false, 0, 0, false⟩ blob pw kc (C50_builtin_quiet H C Ed M _ (hb M h3)) h4,
      opened_tells q h4⟩
  | manager m r =>
    obtain ⟨p, h1, h2⟩ := (names_var ht).2 m r rfl
    have h3 := hb m (hk _ (List.mem_of_getElem? h1) (m, r) h2)
    refine ⟨C50_builtin_quiet H C Ed m r h3, ?_⟩
    intro n f hf
    rcases h3.factory hf with ⟨-, rfl⟩ | ⟨-, rfl⟩ | ⟨-, rfl⟩
    · exact cardano_factory_telling ..
    · exact ethereum_factory_telling ..
    · exact bitcoin_factory_telling ..

/-- C69: a whole program with the built-in networks never ends early: every step returns to it, whatever it passes, as long as it follows
the rule and no text from outside has a NUL. -/
theorem C69_returns (H : Hashes) (C : Secp.Curve) (Ed : Cardano.Ed) (W : Build) (ca eth btc : Bool) (hW : W.all = allNetworks H C Ed ca eth btc)
    (ops : List Op) (hf : Follows W ops ⟨[], []⟩) (hc : ∀ op ∈ ops, Clean W op) : ∃ s, State.run W ops ⟨[], []⟩ = .next s := by
  have key : ∀ (ops : List Op) (s : State), Sound W s → Known W s → Follows W ops s → (∀ op ∈ ops, Clean W op) → ∃ s', s.run W ops = .next s' := by
    intro ops
    induction ops with
    | nil => exact fun s _ _ _ _ => ⟨s, rfl⟩
    | cons op ops ih =>
      intro s hs hk hf hc
      rcases sound_step hs op hf.1 with ⟨s1, h1, h2⟩ | h
      · obtain ⟨s', h3⟩ := ih s1 h2 (known_step hs hk hf.1 h1) (hf.2 s1 h1) fun op h => hc op (List.mem_cons_of_mem _ h)
        exact ⟨s', by simp only [State.run, h1]; exact h3⟩
      · exfalso
        cases op with
        | call k f x j val err =>
          obtain ⟨t, ht⟩ := sound_names hs f j
          obtain ⟨c1, c2, c3⟩ := hc _ List.mem_cons_self
          obtain ⟨b, v, e, h', hcall⟩ := C50_no_unwind W x _ f val err s.heap t ht (handle_quiet hW hk ht).1 c1 c2 c3
          simp only [State.step, hcall] at h
          cases b <;> cases h
        | delete j =>
          cases hv : s.vars[j]? with
          | none => simp only [State.step, hv] at h; cases h
          | some w =>
            obtain ⟨s1, h1, -⟩ := sound_delete hs hv hf.1
            rw [h] at h1
            cases h1
  exact key ops _ start.1 start.2 hf hc

/-- The step of a call, seen from the new variable: the library's result, with what the handle is. -/
theorem from_phrase {W : Build} {s s1 : State} (hs : Sound W s) (hk : Known W s) {mn pw : CText} {lang : CLanguage} {x : Ctx} {j : Nat}
    {val : DataPtr} {err : ErrorPtr} {d : DataPtr} (hst : s.step W (.call .data (.fromMnemonic mn pw lang) x j val err) = .next s1)
    (hd : s1.vars = s.vars ++ [⟨.data, d⟩]) :
    ∃ blob M r r' m t, Json.ofUtf8 mn.val = some m ∧ Json.ofUtf8 pw.val = some t ∧ Manager.new W.umax W.all = .ok M ∧
      (M.keychainDataFromMnemonic W.E x.factories x.keys m t (some (language lang))).run r = (.ok blob, r') ∧
      Reads W s1.heap .data d blob := by
  obtain ⟨t, ht⟩ := sound_names hs (Fn.fromMnemonic mn pw lang) j
  rcases step_new ht hst with ⟨c, v, e, h1, h2⟩ | ⟨e, ty, txt, e', h1⟩
  · rw [hd] at e
    have e := List.append_cancel_left e
    cases e
    cases t with
    | manager M r =>
      obtain ⟨p, h3, h4⟩ := (names_var ht).2 M r rfl
      have hM := hk _ (List.mem_of_getElem? h3) (M, r) h4
      have h1 : ((decode mn fun m => decode pw fun pw =>
        M.keychainDataFromMnemonic W.E x.factories x.keys m pw (some (language lang))).run r).1 = .ok c := h1
      unfold decode at h1
      split at h1
      · rename_i m em
        split at h1
        · rename_i t et
          exact ⟨c, M, r, _, m, t, em, et, hM, Prod.ext h1 rfl, h2⟩
        · cases h1
      · cases h1
    | _ => cases h1
  · rw [hd] at e'
    have e' := List.append_cancel_left e'
    cases e'

/-- C69: a program makes a wallet from a phrase.  In any program with the same cipher, after any history, asking for the phrase with the
password returns true, and C reads the very bytes and the language it passed. -/
theorem C69_phrase (W W' : Build) (hA : KC.Spec.Crypt.AeadCorrect W.E.A) (hE : W'.E = W.E) (ops : List Op) (hf : Follows W ops ⟨[], []⟩)
    (s s1 : State) (hr : State.run W ops ⟨[], []⟩ = .next s) (mn pw : CText) (lang : CLanguage) (x : Ctx) (j : Nat) (val : DataPtr)
    (err : ErrorPtr) (d : DataPtr) (hst : s.step W (.call .data (.fromMnemonic mn pw lang) x j val err) = .next s1)
    (hd : s1.vars = s.vars ++ [⟨.data, d⟩]) :
    ∃ blob, Reads W s1.heap .data d blob ∧
    ∀ ops' s', Follows W' ops' ⟨[], []⟩ → State.run W' ops' ⟨[], []⟩ = .next s' →
    ∀ j' q c, s'.vars[j']? = some ⟨.manager, q⟩ → Reads W' s'.heap .manager q c → ∀ x' val' err',
    ∃ s2 v i, s'.step W' (.call .info (.retrieve blob pw) x' j' val' err') = .next s2 ∧ s2.vars = s'.vars ++ [⟨.info, v⟩] ∧
      v.mnemonic = .to i ∧ Live s2.heap i ⟨mn.val.length + 1, 1⟩ (.text mn.val) ∧ v.language = lang := by
  obtain ⟨hs, hk⟩ := known_run ops start.1 start.2 hf hr
  obtain ⟨blob, M, r, r', m, t, em, et, hM, hb, hrd⟩ := from_phrase hs hk hst hd
  refine ⟨blob, hrd, ?_⟩
  intro ops' s' hf' hr' j' q c hv hq x' val' err'
  have hret := (C41_recoverable W.E hA x.factories x.keys M ⟨W.umax, W.all, hM⟩ t r r' blob).1 m (some (language lang)) hb
  have hu : Str.utf8 m = mn.val := utf8_ofUtf8 em
  have hl : (((Fn.retrieve blob pw).lib W' x' (.manager c.1 c.2)).run c.2).1 = .ok (m, language lang) := by
    show ((decode pw fun pw => .ret (Manager.retrieveMnemonic W'.E blob pw)).run c.2).1 = _
    unfold decode
    rw [et, hE]
    exact hret
  obtain ⟨s2, v, h1, h2, ⟨-, i, h3, h4⟩, h5⟩ := step_good x' val' err' (names_manager hv hq (Fn.retrieve blob pw) rfl) hl
    (by show (0 : UInt8) ∉ Str.utf8 m; rw [hu]; exact mn.property)
  rw [hu] at h4
  refine ⟨s2, v, i, h1, h2, h3, h4, ?_⟩
  have h5 : v.language.num = rustNum (language lang) := h5
  generalize v.language = l at h5
  clear hl hret hb hst
  revert h5
  clear * -
  cases l <;> cases lang <;> decide

/-! ### Non-vacuity -/

/-- A program that only calls follows the rule. -/
theorem follows_calls (W : Build) (ops : List Op) (h : ∀ op ∈ ops, ∃ k f x j val err, op = .call k f x j val err) (s : State) :
    Follows W ops s := by
  induction ops generalizing s with
  | nil => trivial
  | cons op ops ih =>
    obtain ⟨k, f, x, j, val, err, rfl⟩ := h op List.mem_cons_self
    exact ⟨trivial, fun s' _ => ih (fun op ho => h op (List.mem_cons_of_mem _ ho)) s'⟩

/-- `C69_returns`: opening what is no wallet with a manager, and signing with the keychain that did not come of it. -/
example : ∃ s, State.run { toyBuild with all := allNetworks toyEnv.H Toy.curve toyEd true true true }
    [.call .manager (.managerNew countingRng) toyCtx 0 .null ⟨.panic, .null⟩,
     .call .keychain (.open [1, 2, 3] ⟨[112], by decide⟩) toyCtx 0 .null ⟨.panic, .null⟩,
     .call .data (.sign ⟨0x80000000⟩ [1] ⟨0, 0, 0, 0, 0⟩) toyCtx 1 ⟨.null, 0⟩ ⟨.panic, .null⟩] ⟨[], []⟩ = .next s := by
  refine C69_returns toyEnv.H Toy.curve toyEd _ true true true rfl _ (follows_calls _ _ ?_ _) ?_
  · simp
  · intro op ho
    simp only [List.mem_cons, List.not_mem_nil, or_false] at ho
    rcases ho with rfl | rfl | rfl
    · exact ⟨by decide +kernel, by decide +kernel, nofun⟩
    · exact ⟨by decide +kernel, by decide +kernel, nofun⟩
    · exact ⟨by decide +kernel, by decide +kernel, nofun⟩

end KC.Props
