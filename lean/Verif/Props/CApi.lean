import Verif.Proofs.CErrors
import Verif.Proofs.CHistory
import Verif.Props.Random
import Verif.Tactics
/-
C49 (one output), C50 (panics stay inside), C51 (error codes), C53 (conversions).
-/
namespace KC.Props
open KC.C KC.Spec.C
open KC.Mnemonic (Language)

/-! ### C49 -/

/-- C49: for any pointer, memory and earlier contents of the output variables: a call that returns true leaves the error variable, one
that returns false leaves the value variable; and what it returns and writes does not depend on what was there. -/
theorem C49_exactly_one (W : Build) (x : Ctx) (p : Ptr) {k : Kind} (f : Fn k) (val v : Val k) (err e : ErrorPtr) (h h' : Heap) (b : Bool)
    (hc : f.call W x p val err h = .ret b v e h') :
    (b = true → e = err) ∧ (b = false → v = val) ∧
    ∀ val' err', f.call W x p val' err' h = .ret b (if b then v else val') (if b then err' else e) h' := by
  obtain ⟨g, hg⟩ : ∃ g : CM Empty (Except ErrorPtr (Val k)), ∀ val err, f.call W x p val err = respond g val err := by
    cases f <;> exact ⟨_, fun _ _ => rfl⟩
  rw [hg] at hc
  unfold respond at hc
  cases hh : g h with
  | ok r h1 =>
    rw [hh] at hc
    cases r with
    | ok a =>
      cases hc
      refine ⟨fun _ => rfl, nofun, fun val' err' => ?_⟩
      rw [hg]; unfold respond; rw [hh]; rfl
    | error a =>
      cases hc
      refine ⟨nofun, fun _ => rfl, fun val' err' => ?_⟩
      rw [hg]; unfold respond; rw [hh]; rfl
  | err e => cases e
  | panic h1 => rw [hh] at hc; cases hc
  | ub => rw [hh] at hc; cases hc

/-- C49: what is written.  With a handle that is null or live, the call does the library call behind it and
* returns true with the content of the result, if there is a result and C text can carry it;
* returns false with the type and text of the library's error, if there is an error and C text can carry it;
* returns false with type Panic and the panic's text, if there is a panic (or a result C text cannot carry) and C text can carry that. -/
theorem C49_outcome (W : Build) (x : Ctx) (p : Ptr) {k : Kind} (f : Fn k) (val : Val k) (err : ErrorPtr) (h : Heap) (t : Target)
    (ht : Names W h p f.handle t) :
    (∀ c, ((f.lib W x t).run t.rng).1 = .ok c → Fits k c → ∃ v h', f.call W x p val err h = .ret true v err h' ∧ Reads W h' k v c) ∧
    (∀ e, ((f.lib W x t).run t.rng).1 = .err e → '\x00' ∉ e.display x.texts →
      ∃ r h', f.call W x p val err h = .ret false val r h' ∧ Reads W h' .error r (errorType e, e.display x.texts)) ∧
    ((((f.lib W x t).run t.rng).1 = .panic ∨ ∃ c, ((f.lib W x t).run t.rng).1 = .ok c ∧ ¬ Fits k c) → '\x00' ∉ x.panic.message →
      ∃ r h', f.call W x p val err h = .ret false val r h' ∧ Reads W h' .error r (.panic, x.panic.message)) := by
  have hE := call_ends x val err ht
  generalize f.call W x p val err h = out at hE
  cases hE with
  | good c v new h1 h2 h3 h4 h5 =>
    rw [h1]
    refine ⟨fun c' hc' _ => ?_, nofun, ?_⟩
    · cases hc'; exact ⟨v, _, rfl, h3⟩
    · rintro (h | ⟨c', h, hn⟩)
      · cases h
      · cases h; exact absurd h2 hn
  | bad e ty s b h1 h2 h3 =>
    rcases h3 with ⟨er, h3, rfl, rfl⟩ | ⟨h3, rfl, rfl⟩
    · rw [h3]
      refine ⟨nofun, fun e' he' _ => ?_, ?_⟩
      · cases he'; exact ⟨e, _, rfl, h1⟩
      · rintro (h | ⟨c', h, -⟩) <;> cases h
    · refine ⟨fun c hc hfit => ?_, fun e he => ?_, fun _ _ => ⟨e, _, rfl, h1⟩⟩
      · rcases h3 with h3 | ⟨c', h3, hn⟩
        · rw [h3] at hc; cases hc
        · rw [h3] at hc; cases hc; exact absurd hfit hn
      · rcases h3 with h3 | ⟨c', h3, hn⟩ <;> rw [h3] at he <;> cases he
  | unwind h1 =>
    rcases h1 with ⟨er, h1, hn⟩ | ⟨h1, hn⟩
    · rw [h1]
      refine ⟨nofun, fun e he h0 => ?_, ?_⟩
      · cases he; exact absurd ((nul_utf8 _).mp hn) h0
      · rintro (h | ⟨c', h, -⟩) <;> cases h
    · refine ⟨fun c hc hfit => ?_, fun e he => ?_, fun _ h0 => absurd ((nul_utf8 _).mp hn) h0⟩
      · rcases h1 with h3 | ⟨c', h3, hn⟩
        · rw [h3] at hc; cases hc
        · rw [h3] at hc; cases hc; exact absurd hfit hn
      · rcases h1 with h3 | ⟨c', h3, hn⟩ <;> rw [h3] at he <;> cases he

/-! ### C50 -/

/-- C50: the guard, for any body whatever: a panic inside becomes false with a Panic error (its text readable), unless the panic's text has
a NUL; then making the error panics outside the guard. -/
theorem C50_guard {α} (W : Build) (x : Ctx) (body : CM Error α) (val : α) (err : ErrorPtr) (h h' : Heap) (hb : body h = .panic h') :
    ('\x00' ∉ x.panic.message → ∃ r h'', respond (handleExceptionResult x body) val err h = .ret false val r h'' ∧
      Reads W h'' .error r (.panic, x.panic.message)) ∧
    ('\x00' ∈ x.panic.message → respond (handleExceptionResult x body) val err h = .unwind h') := by
  rw [respond_result, hb]
  simp only [settle, failed]
  constructor
  · intro hn
    rw [← nul_utf8] at hn
    rw [if_neg hn]
    exact ⟨_, _, rfl, reads_failed hn⟩
  · intro hn
    rw [← nul_utf8] at hn
    rw [if_pos hn]

/-- C50: exactly when a panic leaves a call: the library's error has a NUL in its text, or the call panics with a NUL in the panic's
text. -/
theorem C50_unwinds_iff (W : Build) (x : Ctx) (p : Ptr) {k : Kind} (f : Fn k) (val : Val k) (err : ErrorPtr) (h : Heap) (t : Target)
    (ht : Names W h p f.handle t) :
    (∃ h', f.call W x p val err h = .unwind h') ↔
      (∃ e, ((f.lib W x t).run t.rng).1 = .err e ∧ '\x00' ∈ e.display x.texts) ∨
      ((((f.lib W x t).run t.rng).1 = .panic ∨ ∃ c, ((f.lib W x t).run t.rng).1 = .ok c ∧ ¬ Fits k c) ∧ '\x00' ∈ x.panic.message) := by
  constructor
  · rintro ⟨h', hu⟩
    have hE := call_ends x val err ht
    rw [hu] at hE
    cases hE with
    | unwind h1 =>
      simp only [nul_utf8] at h1
      exact h1
  · intro hn
    have hE := call_ends x val err ht
    generalize f.call W x p val err h = out at hE ⊢
    cases hE with
    | unwind h1 => exact ⟨_, rfl⟩
    | good c v new h1 h2 h3 h4 h5 =>
      exfalso
      rcases hn with ⟨e, he, -⟩ | ⟨hp | ⟨c', hc, hf⟩, -⟩
      · rw [h1] at he; cases he
      · rw [h1] at hp; cases hp
      · rw [h1] at hc; cases hc; exact hf h2
    | bad e ty s b h1 h2 h3 =>
      exfalso
      obtain ⟨-, htext, -⟩ := h1
      rw [nul_utf8] at htext
      rcases hn with ⟨e, he, hn⟩ | ⟨hp, hn⟩
      · rcases h3 with ⟨er, h3, rfl, rfl⟩ | ⟨h3 | ⟨c, h3, -⟩, rfl, rfl⟩
        · rw [h3] at he; cases he; exact htext hn
        · rw [h3] at he; cases he
        · rw [h3] at he; cases he
      · rcases h3 with ⟨er, h3, rfl, rfl⟩ | ⟨h3, rfl, rfl⟩
        · rcases hp with hp | ⟨c, hp, -⟩ <;> rw [h3] at hp <;> cases hp
        · exact htext hn

/-- C50: which errors have a NUL in their text: those that quote a text from outside with a NUL. -/
theorem C50_texts (T : Texts) (e : Error) : '\x00' ∈ e.display T ↔ ∃ s ∈ quotes T e, '\x00' ∈ s := nul_error T e

/-- C50: no panic leaves a call on a null or live handle (of a manager or keychain of networks that quote nothing from outside) as long
as neither the panic's text nor the text of `serde_json` has a NUL, nor, for adding a network, the phrase stored in the wallet. -/
theorem C50_no_unwind (W : Build) (x : Ctx) (p : Ptr) {k : Kind} (f : Fn k) (val : Val k) (err : ErrorPtr) (h : Heap) (t : Target)
    (ht : Names W h p f.handle t) (hq : t.Quiet) (hp : '\x00' ∉ x.panic.message) (hs : '\x00' ∉ x.texts.serde)
    (hm : ∀ m ∈ f.foreign W, '\x00' ∉ m) : ∃ b v e h', f.call W x p val err h = .ret b v e h' := by
  have hE := call_ends x val err ht
  generalize f.call W x p val err h = out at hE ⊢
  cases hE with
  | good c v new h1 h2 h3 h4 h5 => exact ⟨_, _, _, _, rfl⟩
  | bad e ty s b h1 h2 h3 => exact ⟨_, _, _, _, rfl⟩
  | unwind h1 =>
    exfalso
    simp only [nul_utf8] at h1
    rcases h1 with ⟨e, he, hn⟩ | ⟨-, hn⟩
    · obtain ⟨q, hq1, hq2⟩ := (nul_error _ _).mp hn
      rcases lib_nul hq he hq1 hq2 with rfl | ⟨m, h1, h2⟩
      · exact hs hq2
      · exact hm m h1 h2
    · exact hp hn

/-- C50: the three built-in networks quote nothing from outside, so the managers the C interface makes satisfy the hypothesis ... -/
theorem C50_builtin_quiet (H : Hashes) (C : Secp.Curve) (Ed : Cardano.Ed) (M : Manager) (r : Rng) (hb : BuiltIn H C Ed M) :
    (Target.manager M r).Quiet := by
  intro n f hf
  rcases hb.factory hf with ⟨-, rfl⟩ | ⟨-, rfl⟩ | ⟨-, rfl⟩
  · exact cardano_factory ..
  · exact ethereum_factory ..
  · exact bitcoin_factory ..

/-- C50: ... and so do the keychains they open. -/
theorem C50_opened_quiet (E : Env) (it : Iter (Network × Bytes)) (M : Manager) (r : Rng) (blob : Bytes) (pw : Str) (kc : Keychain)
    (hq : (Target.manager M r).Quiet) (h : M.keychainFromData E it blob pw = .ok kc) : (Target.keychain kc).Quiet :=
  open_quiet hq h

/-- C50: the delete functions never panic. -/
theorem C50_delete (W : Build) (k : Kind) (v : Val k) (h h' : Heap) : delete W k v h ≠ .panic h' := by
  have hd : ∀ (p : Ptr) (l : Layout) (h h' : Heap), (CM.dealloc p l : CM Empty Unit) h ≠ .panic h' := by
    intro p l h h'
    unfold CM.dealloc
    split
    · nofun
    · split
      · split <;> nofun
      · nofun
  have bindP : ∀ {α β : Type} (x : CM Empty α) (f : α → CM Empty β) (h h' : Heap), (∀ h h', x h ≠ .panic h') → (∀ a h h', f a h ≠ .panic h') →
      (x >>= f) h ≠ .panic h' := by
    intro α β x f h h' hx hf
    rw [CM.bind_apply]
    cases hxh : x h with
    | ok a h1 => exact hf a _ _
    | err e h1 => cases e
    | panic h1 => exact absurd hxh (hx _ _)
    | ub => nofun
  have pureP : ∀ {α : Type} (a : α) (h h' : Heap), (pure a : CM Empty α) h ≠ .panic h' := nofun
  have iteP : ∀ {α : Type} {c : Prop} [Decidable c] (a b : CM Empty α) (h h' : Heap), a h ≠ .panic h' → b h ≠ .panic h' →
      (if c then a else b) h ≠ .panic h' := by
    intro α c _ a b h h' ha hb
    split <;> assumption
  have hchar : ∀ (p : Ptr) (h h' : Heap), charFree p h ≠ .panic h' := by
    intro p h h'
    unfold charFree
    split
    · exact bindP _ _ _ _ (hd _ _) fun _ => pureP _
    · nofun
  have hdata : ∀ (d : DataPtr) (h h' : Heap), d.free h ≠ .panic h' := by
    intro d h h'
    unfold DataPtr.free
    split
    · exact pureP _ _ _
    · exact bindP _ _ _ _ (hd _ _) fun _ => pureP _
  cases k with
  | path => exact pureP _ _ _
  | bool => exact pureP _ _ _
  | text => exact bindP _ _ _ _ (fun h h' => bindP _ _ _ _ (hchar _) fun _ => pureP _) fun _ => pureP _
  | data => exact hdata _ _ _
  | networks =>
    show NetworksPtr.free W v h ≠ _
    unfold NetworksPtr.free
    split
    · exact pureP _ _ _
    · exact bindP _ _ _ _ (hd _ _) fun _ => pureP _
  | keychain =>
    show deleteKeychain W v h ≠ _
    unfold deleteKeychain
    split
    · exact pureP _ _ _
    · exact bindP _ _ _ _ (hd _ _) fun _ => pureP _
  | manager =>
    show deleteKeychainManager W v h ≠ _
    unfold deleteKeychainManager
    split
    · exact pureP _ _ _
    · exact bindP _ _ _ _ (hd _ _) fun _ => pureP _
  | backup =>
    have hel : ∀ (es : List KeyBackupElem) (h h' : Heap), freeElems es h ≠ .panic h' := by
      intro es
      induction es with
      | nil => exact pureP _
      | cons e es ih => intro h h'; exact bindP _ _ _ _ (hdata _) fun _ => ih
    show KeyBackupPtr.free W v h ≠ _
    unfold KeyBackupPtr.free
    refine iteP _ _ _ _ (pureP _ _ _) (iteP _ _ _ _ (pureP _ _ _) ?_)
    split
    · split
      · exact bindP _ _ _ _ (hel _) fun _ => fun h h' => bindP _ _ _ _ (hd _ _) fun _ => pureP _
      · nofun
    · nofun
  | info =>
    show deleteMnemonicInfo v h ≠ _
    unfold deleteMnemonicInfo
    split
    · exact pureP _ _ _
    · exact bindP _ _ _ _ (hchar _) fun _ => pureP _
  | error =>
    show ErrorPtr.free v h ≠ _
    unfold ErrorPtr.free
    split
    · exact pureP _ _ _
    · exact bindP _ _ _ _ (hchar _) fun _ => pureP _

/-! ### C51 -/

/-- C51: the code handed to C for a library error is the one of the header. -/
theorem C51_code (e : Error) : (errorType e).code = code e := by cases e <;> rfl

/-- C51: codes are 0 to 11, never the Panic code. -/
theorem C51_range (e : Error) : 0 ≤ (errorType e).code ∧ (errorType e).code ≤ 11 ∧ (errorType e).code ≠ ErrorType.panic.code := by
  cases e <;> (refine ⟨?_, ?_, ?_⟩ <;> simp [errorType, ErrorType.code])

/-- C51: two errors have the same code just if they are of the same kind, and each kind of the list has the code of its position. -/
theorem C51_distinct (e : Error) : ∃ i : Nat, (errorType e).code = i ∧ kinds[i]?.map (· e) = some true ∧
    ∀ j : Nat, kinds[j]?.map (· e) = some true → j = i := by
  have key : ∀ e : Error, ∀ i : Fin 12, (kinds[i.val]?.map (· e) = some true ↔ (errorType e).code = (i.val : Int)) := by
    intro e i
    obtain ⟨i, hi⟩ := i
    interval_cases i <;> cases e <;> simp [kinds, errorType, ErrorType.code]
  have hlt : ∀ j : Nat, kinds[j]?.map (· e) = some true → j < 12 := by
    intro j hj
    by_contra hn
    rw [List.getElem?_eq_none (by show 12 ≤ j; omega)] at hj
    cases hj
  obtain ⟨i, hi⟩ : ∃ i : Fin 12, (errorType e).code = (i.val : Int) := by
    obtain ⟨h0, h1, -⟩ := C51_range e
    exact ⟨⟨(errorType e).code.toNat, by omega⟩, by simp; omega⟩
  refine ⟨i.val, hi, (key e i).mpr hi, fun j hj => ?_⟩
  have := (key e ⟨j, hlt j hj⟩).mp hj
  rw [hi] at this
  exact (Int.ofNat.inj this).symm

/-- C51: through any call: the error C reads after an error of the library has the code of that error. -/
theorem C51_through (W : Build) (x : Ctx) (p : Ptr) {k : Kind} (f : Fn k) (val v : Val k) (err r : ErrorPtr) (h h' : Heap) (t : Target)
    (ht : Names W h p f.handle t) (e : Error) (he : ((f.lib W x t).run t.rng).1 = .err e)
    (hc : f.call W x p val err h = .ret false v r h') : r.errorType.code = code e := by
  have hE := call_ends x val err ht
  rw [hc] at hE
  cases hE with
  | bad e' ty s b h1 h2 h3 =>
    rcases h3 with ⟨er, h3, rfl, rfl⟩ | ⟨h3 | ⟨c, h3, -⟩, rfl, rfl⟩
    · rw [h3] at he
      cases he
      rw [← C51_code]
      exact congrArg ErrorType.code h1.1
    · rw [h3] at he; cases he
    · rw [h3] at he; cases he

/-! ### C53 -/

/-- C53: networks. -/
theorem C53_network (n : Network) (c : CNetwork) : (CNetwork.ofRust n).rust = n ∧ CNetwork.ofRust c.rust = c ∧ (CNetwork.ofRust n).val = n :=
  ⟨rfl, rfl, rfl⟩

/-- C53: key paths, component by component. -/
theorem C53_path (p : KeyPath.Path) (c : CKeyPath) : (CKeyPath.ofRust p).rust = p ∧ CKeyPath.ofRust c.rust = c ∧
    (c.rust.purpose = c.purpose ∧ c.rust.coin = c.coin ∧ c.rust.account = c.account ∧ c.rust.change = c.change ∧ c.rust.address = c.address) :=
  ⟨rfl, rfl, rfl, rfl, rfl, rfl, rfl⟩

/-- C53: languages: both conversions succeed, are inverse to each other and keep the number. -/
theorem C53_language : (∀ l : Language, ∃ c, CLanguage.ofRust l = some c ∧ c.rust = some l ∧ c.num = rustNum l) ∧
    ∀ c : CLanguage, ∃ l, c.rust = some l ∧ CLanguage.ofRust l = some c ∧ rustNum l = c.num := by
  constructor
  · intro l; cases l <;> exact ⟨_, rfl, rfl, rfl⟩
  · intro c; cases c <;> exact ⟨_, rfl, rfl, rfl⟩

/-- The Rust constructor behind a key path function of C. -/
def rustPath (W : Build) : Fn .path → Option (Res KeyPath.Error KeyPath.Path)
  | .keypathFromString s => (Json.ofUtf8 s.val).map (KeyPath.Path.from W.profile)
  | .bitcoinBip44 t a c d => some (Bitcoin.bip44 W.profile t a c d)
  | .bitcoinBip49 t a c d => some (Bitcoin.bip49 W.profile t a c d)
  | .bitcoinBip84 t a c d => some (Bitcoin.bip84 W.profile t a c d)
  | .ethereumNew a => some (Ethereum.path W.profile a)
  | .ethereumMetamask a => some (Ethereum.pathMetamask a)
  | .cardanoNew a c d => some (Cardano.path W.profile a c d)

/-- C53: the key path functions of C give the five components of the Rust path, or its error; memory is only used for the error. -/
theorem C53_constructors (W : Build) (x : Ctx) (p : Ptr) (f : Fn .path) (val : CKeyPath) (err : ErrorPtr) (h : Heap)
    (r : Res KeyPath.Error KeyPath.Path) (hr : rustPath W f = some r) :
    (∀ q, r = .ok q → f.call W x p val err h = .ret true ⟨q.purpose, q.coin, q.account, q.change, q.address⟩ err h) ∧
    (∀ e, r = .err e → '\x00' ∉ (Error.keyPathError e).display x.texts →
      ∃ er h', f.call W x p val err h = .ret false val er h' ∧ Reads W h' .error er (.keyPathError, (Error.keyPathError e).display x.texts)) := by
  have hlib : ∀ rng, ((f.lib W x .none).run rng).1 = r.mapErr .keyPathError := by
    intro rng
    cases f with
    | keypathFromString s =>
      simp only [rustPath, Option.map_eq_some_iff] at hr
      obtain ⟨t, h1, h2⟩ := hr
      subst h2
      simp only [Fn.lib]
      rw [run_decode, h1]; rfl
    | _ => cases hr; rfl
  have ht : Names W h p f.handle .none := by cases f <;> exact .no
  obtain ⟨o1, o2, -⟩ := C49_outcome W x p f val err h .none ht
  constructor
  · intro q hq
    subst hq
    have hE := call_ends x val err ht
    rw [hlib] at hE
    generalize f.call W x p val err h = out at hE
    cases hE with
    | good c v new h1 h2 h3 h4 h5 =>
      cases h1
      have hnew : new = [] := by
        have := congrArg List.length h4
        simp only [owned, List.length_nil, List.length_range'] at this
        exact List.length_eq_zero_iff.mp this.symm
      subst hnew
      obtain ⟨a1, a2, a3, a4, a5⟩ := h3
      have hv : v = ⟨q.purpose, q.coin, q.account, q.change, q.address⟩ := by
        obtain ⟨_, _, _, _, _⟩ := v
        simp only at a1 a2 a3 a4 a5
        rw [a1, a2, a3, a4, a5]
      rw [hv, List.append_nil]
      rfl
    | bad e ty s b h1 h2 h3 => rcases h3 with ⟨er, h3, -⟩ | ⟨h3 | ⟨c, h3, hf⟩, -⟩ <;> cases h3; exact absurd trivial hf
    | unwind h1 => rcases h1 with ⟨er, h1, -⟩ | ⟨h1 | ⟨c, h1, hf⟩, -⟩ <;> cases h1; exact absurd trivial hf
  · intro e he hn
    subst he
    exact o2 _ (hlib _) hn

/-! ### C50: a panic that does leave a call -/

/-- C50: the exception happens: a wallet (not made by this library) stores a phrase whose first unknown word has a NUL; adding a network
to it lets a panic out of the C function, whatever the panic's text. -/
theorem C50_add_unwinds (W : Build) (x : Ctx) (i : Nat) (M : Manager) (r : Rng) (h : Heap) (hl : Live h i W.manager (.manager M r))
    (blob : Bytes) (pw : CText) (t : Str) (ht : Json.ofUtf8 pw.val = some t) (c : Spec.Wallet.Content)
    (hH : Spec.Wallet.Holds W.E blob t c) (n : CNetwork) (f : Factory) (hf : M.getKeyFactory n.val = some f) (hn : c.keys n.val = none)
    (hs : c.seed = none) (m : Str) (l : Language) (hm : c.mnemonic = some m) (hlang : c.language = some l) (w : Str)
    (hw : Mnemonic.seedFromMnemonic W.E.H m [] M.seedSize l = .err (.unsupportedWordFound w)) (h0 : '\x00' ∈ w)
    (val : DataPtr) (err : ErrorPtr) : ∃ h', (Fn.add blob pw n).call W x (.to i) val err h = .unwind h' := by
  rw [C50_unwinds_iff W x (.to i) (.add blob pw n) val err h (.manager M r) (.manager i M r rfl hl)]
  refine .inl ⟨.mnemonicError (.unsupportedWordFound w), ?_, ?_⟩
  · show ((decode pw fun pw => M.addNetwork W.E x.keys blob pw n.val).run r).1 = _
    rw [run_decode, ht]
    show ((M.addNetwork W.E x.keys blob t n.val).run r).1 = _
    obtain ⟨wd, e1, rfl⟩ := Manager.load_holds hH
    have hs : wd.seed = none := hs
    have hm : wd.mnemonic = some m := hm
    have hlang : wd.dictionary = some l := hlang
    have hn : wd.keys.get n.val = none := hn
    have hf : M.factories.get n.val = some f := hf
    rw [Manager.addNetwork, hf, e1]
    simp only [Res.okOr, RM.lift_ok_bind, hn, Option.isSome_none, Bool.false_eq_true, if_false, Manager.seedFromData, hs, hm, hlang, Res.bind_ok,
      hw, Res.mapErr]
    rfl
  · rw [nul_error]
    exact ⟨w, List.mem_singleton.mpr rfl, h0⟩

/-! ### Non-vacuity -/

/-- A build of the toy world: networks 1 and 2. -/
def toyBuild : Build where
  E := toyEnv
  umax := 65535
  profile := .release
  all := [toyFactory 1, toyFactory 2]
  word := 8
  word_ok := .inr rfl
  keychain := ⟨48, 8⟩
  keychain_ok := by decide
  manager := ⟨72, 8⟩
  manager_ok := by decide

def toyCtx : Ctx := ⟨.text "boom".toList, ⟨"bad json".toList, fun _ => []⟩, forwards, forwards, forwards⟩

/-- A call that returns true and one that returns false, with what was in the variables before. -/
example : (Fn.ethereumNew 3).call toyBuild toyCtx .null ⟨9, 9, 9, 9, 9⟩ ⟨.keyError, .null⟩ [] =
      .ret true ⟨0x8000002c, 0x8000003c, 0x80000003, 0, 0⟩ ⟨.keyError, .null⟩ [] := rfl

example : ∃ h', (Fn.ethereumNew 0x80000003).call toyBuild toyCtx .null ⟨9, 9, 9, 9, 9⟩ ⟨.keyError, .null⟩ [] =
      .ret false ⟨9, 9, 9, 9, 9⟩ ⟨.keyPathError, .to 0⟩ h' ∧
      Reads toyBuild h' .error ⟨.keyPathError, .to 0⟩ (.keyPathError, "Key path error Invalid account 2147483651".toList) := by
  have e : (Error.keyPathError (.invalidAccount 2147483651)).display toyCtx.texts = "Key path error Invalid account 2147483651".toList := by
    decide +kernel
  rw [← e]
  exact ⟨_, rfl, rfl, by decide +kernel, 0, rfl, rfl⟩

/-- A null handle gives a Panic error. -/
example : ∃ h', (Fn.generate .english).call toyBuild toyCtx .null .null ⟨.keyError, .null⟩ [] = .ret false .null ⟨.panic, .to 0⟩ h' ∧
      Reads toyBuild h' .error ⟨.panic, .to 0⟩ (.panic, "boom".toList) :=
  ⟨_, rfl, rfl, by decide +kernel, 0, rfl, rfl⟩

/-- Memory with one manager in it. -/
def oneManager : Heap := [some ⟨⟨72, 8⟩, .manager (toyManager [1, 2]) countingRng⟩]

/-- Non-vacuity of `C50_add_unwinds`: such a wallet, and a manager to add network 1 to it. -/
example : ∃ blob h', (Fn.add blob ⟨[112], by decide⟩ ⟨1⟩).call toyBuild toyCtx (.to 0) ⟨.null, 0⟩ ⟨.panic, .null⟩ oneManager = .unwind h' := by
  obtain ⟨blob, r', hst⟩ := Manager.store_runs toyEnv forwards ⟨none, some ['a', '\x00'], some .english, NMap.ofList []⟩ ['p'] counting_delivers
  have hH := Manager.store_holds (E := toyEnv) toyAead_correct hst
  obtain ⟨h', e⟩ := C50_add_unwinds toyBuild toyCtx 0 (toyManager [1, 2]) countingRng oneManager rfl blob ⟨[112], by decide⟩ ['p']
    (by decide +kernel) _ hH ⟨1⟩ (toyFactory 1) (by rw [toyManager_get, if_pos (by decide)]) rfl rfl _ _ rfl rfl ['a', '\x00']
    (by decide +kernel) (by decide) ⟨.null, 0⟩ ⟨.panic, .null⟩
  exact ⟨blob, h', e⟩

/-- Non-vacuity of `C50_no_unwind`: a live manager of quiet networks, opening something that is no wallet. -/
example : ∃ b v e h', (Fn.open [1, 2, 3] ⟨[112], by decide⟩).call toyBuild toyCtx (.to 0) .null ⟨.panic, .null⟩ oneManager = .ret b v e h' := by
  refine C50_no_unwind _ _ _ _ _ _ _ (.manager (toyManager [1, 2]) countingRng) (.manager 0 _ _ rfl rfl) ?_ (by decide +kernel)
    (by decide +kernel) nofun
  intro n f hf
  rw [toyManager_get] at hf
  split at hf
  · cases hf
    refine ⟨fun d e h => ?_, fun d e h => ?_, fun d k h => ?_⟩
    · cases h
    · cases h
    · cases h; exact ⟨nofun, nofun, nofun⟩
  · cases hf

/-- Non-vacuity of `C51_through`: too little data. -/
example : ∃ v r h', (Fn.open [1, 2, 3] ⟨[112], by decide⟩).call toyBuild toyCtx (.to 0) .null ⟨.panic, .null⟩ oneManager = .ret false v r h' ∧
    r.errorType.code = 1 := ⟨_, _, _, rfl, rfl⟩

end KC.Props
