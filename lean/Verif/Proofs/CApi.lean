import Verif.Spec.CApi
import Verif.Proofs.Json
import Verif.Tactics
/-
The C interface: what each function does to memory.
-/
namespace KC.C
open KC.Spec.C
open KC.Mnemonic (Language)

section CM
variable {ε α β : Type}

@[simp] theorem CM.pure_apply (a : α) (h : Heap) : (pure a : CM ε α) h = .ok a h := rfl

theorem CM.bind_apply (x : CM ε α) (f : α → CM ε β) (h : Heap) :
    (x >>= f) h = match x h with
      | .ok a h => f a h
      | .err e h => .err e h
      | .panic h => .panic h
      | .ub => .ub := rfl

theorem CM.bind_ok {x : CM ε α} {f : α → CM ε β} {h h' : Heap} {a : α} (hx : x h = .ok a h') : (x >>= f) h = f a h' := by
  rw [CM.bind_apply, hx]
theorem CM.bind_err {x : CM ε α} {f : α → CM ε β} {h h' : Heap} {e : ε} (hx : x h = .err e h') : (x >>= f) h = .err e h' := by
  rw [CM.bind_apply, hx]
theorem CM.bind_panic {x : CM ε α} {f : α → CM ε β} {h h' : Heap} (hx : x h = .panic h') : (x >>= f) h = .panic h' := by
  rw [CM.bind_apply, hx]

end CM

/-! ### Live blocks -/

theorem live_append {h : Heap} {i l p} (n : Heap) (hl : Live h i l p) : Live (h ++ n) i l p := by
  unfold Live at *
  rw [List.getElem?_append_left (List.getElem?_eq_some_iff.mp hl).1]; exact hl

theorem live_new (h : Heap) (l : Layout) (p : Payload) : Live (h ++ [some ⟨l, p⟩]) h.length l p := by
  simp [Live]

theorem live_lt {h : Heap} {i l p} (hl : Live h i l p) : i < h.length := (List.getElem?_eq_some_iff.mp hl).1

theorem live_at {h : Heap} {i l p} (hl : Live h i l p) : h.at (.to i) = some (i, ⟨l, p⟩) := by
  simp only [Heap.at]
  rw [show h[i]? = _ from hl]; rfl

theorem bytesAt_append {h : Heap} {d b} (n : Heap) (hl : BytesAt h d b) : BytesAt (h ++ n) d b := by
  obtain ⟨h1, h2 | ⟨h2, i, h3, h4⟩⟩ := hl
  · exact ⟨h1, .inl h2⟩
  · exact ⟨h1, .inr ⟨h2, i, h3, live_append n h4⟩⟩

theorem elemsAt_append {h : Heap} (n : Heap) : ∀ {es cs}, ElemsAt h es cs → ElemsAt (h ++ n) es cs
  | [], [], _ => trivial
  | _ :: _, _ :: _, ⟨h1, h2, h3⟩ => ⟨h1, bytesAt_append n h2, elemsAt_append n h3⟩

theorem elemsAt_length {h : Heap} : ∀ {es cs}, ElemsAt h es cs → es.length = cs.length
  | [], [], _ => rfl
  | _ :: _, _ :: _, ⟨_, _, h3⟩ => by simp [elemsAt_length h3]

/-! ### Making values -/

/-- `mk` makes a value for `c` in fresh memory, all of which the value owns; it panics when the content does not fit. -/
def Makes {ε} (W : Build) (k : Kind) (mk : CM ε (Val k)) (c : Content k) : Prop :=
  ∀ h, (Fits k c → ∃ v new, mk h = .ok v (h ++ new) ∧ Reads W (h ++ new) k v c ∧
      owned (h ++ new) k v = List.range' h.length new.length ∧ ∀ b ∈ new, b.isSome) ∧
    (¬ Fits k c → mk h = .panic h)

theorem makes_text {ε} (W : Build) (s : Str) : Makes (ε := ε) W .text (toCstr s) s := by
  intro h
  refine ⟨fun hf => ?_, fun hf => ?_⟩
  · have hf : (0 : UInt8) ∉ Str.utf8 s := hf
    refine ⟨.to h.length, [some ⟨textLayout (Str.utf8 s).length, .text (Str.utf8 s)⟩], ?_, ⟨hf, h.length, rfl, live_new ..⟩, ?_, by simp⟩
    · rw [toCstr, if_neg hf]; rfl
    · simp [owned, isLive, ptrIds]
  · have hf : (0 : UInt8) ∈ Str.utf8 s := by simpa [Fits] using hf
    rw [toCstr, if_pos hf]; rfl

theorem data_new {ε} (b : Bytes) (h : Heap) : ∃ d new, (DataPtr.new b : CM ε DataPtr) h = .ok d (h ++ new) ∧ BytesAt (h ++ new) d b ∧
    ptrIds d.ptr = List.range' h.length new.length ∧ ∀ b ∈ new, b.isSome := by
  by_cases hb : b = []
  · subst hb
    exact ⟨⟨.dangling, 0⟩, [], by simp [DataPtr.new, CM.bind_apply, CM.alloc, bytesLayout], ⟨rfl, .inl ⟨rfl, rfl⟩⟩, rfl, by simp⟩
  · have hl : b.length ≠ 0 := by simpa using hb
    refine ⟨⟨.to h.length, b.length⟩, [some ⟨bytesLayout b.length, .bytes b⟩], ?_, ⟨rfl, .inr ⟨hb, h.length, rfl, live_new ..⟩⟩, ?_, by simp⟩
    · simp [DataPtr.new, CM.bind_apply, CM.alloc, bytesLayout, hl]
    · simp [ptrIds]

theorem makes_data {ε} (W : Build) (b : Bytes) : Makes (ε := ε) W .data (DataPtr.new b) b := by
  intro h
  refine ⟨fun _ => ?_, fun hf => absurd trivial hf⟩
  obtain ⟨d, new, h1, h2, h3, h4⟩ := data_new (ε := ε) b h
  exact ⟨d, new, h1, h2, h3, h4⟩

theorem makes_path {ε} (W : Build) (q : KeyPath.Path) : Makes (ε := ε) W .path (pure (CKeyPath.ofRust q)) q := by
  intro h
  exact ⟨fun _ => ⟨CKeyPath.ofRust q, [], by simp, ⟨rfl, rfl, rfl, rfl, rfl⟩, rfl, by simp⟩, fun hf => absurd trivial hf⟩

theorem makes_bool {ε} (W : Build) (b : Bool) : Makes (ε := ε) W .bool (pure b) b := by
  intro h
  exact ⟨fun _ => ⟨b, [], by simp, rfl, rfl, by simp⟩, fun hf => absurd trivial hf⟩

theorem makes_networks {ε} (W : Build) (l : List Network) : Makes (ε := ε) W .networks (NetworksPtr.new l) l := by
  intro h
  refine ⟨fun _ => ?_, fun hf => absurd trivial hf⟩
  by_cases hb : l = []
  · subst hb
    exact ⟨⟨.dangling, 0⟩, [], by simp [NetworksPtr.new, CM.bind_apply, CM.alloc, networksLayout], ⟨rfl, .inl ⟨rfl, rfl⟩⟩, rfl, by simp⟩
  · have hl : l.length ≠ 0 := by simpa using hb
    refine ⟨⟨.to h.length, l.length⟩, [some ⟨networksLayout l.length, .networks (l.map CNetwork.ofRust)⟩], ?_,
      ⟨rfl, .inr ⟨hb, h.length, rfl, live_new ..⟩⟩, ?_, by simp⟩
    · simp [NetworksPtr.new, CM.bind_apply, CM.alloc, networksLayout, hb]
    · simp [owned, ptrIds]

theorem makes_keychain {ε} (W : Build) (k : Keychain) : Makes (ε := ε) W .keychain (keychainNew W k) k := by
  intro h
  refine ⟨fun _ => ⟨.to h.length, [some ⟨W.keychain, .keychain k⟩], ?_, ⟨h.length, rfl, live_new ..⟩, by simp [owned, ptrIds], by simp⟩,
    fun hf => absurd trivial hf⟩
  have := W.keychain_ok
  simp only [keychainNew, CM.alloc]
  rw [if_neg (by omega)]

theorem makes_manager {ε} (W : Build) (m : Manager) (r : Rng) : Makes (ε := ε) W .manager (managerNew W m r) (m, r) := by
  intro h
  refine ⟨fun _ => ⟨.to h.length, [some ⟨W.manager, .manager m r⟩], ?_, ⟨h.length, rfl, live_new ..⟩, by simp [owned, ptrIds], by simp⟩,
    fun hf => absurd trivial hf⟩
  have := W.manager_ok
  simp only [managerNew, CM.alloc]
  rw [if_neg (by omega)]

theorem newElems_spec {ε} (l : List (Network × Bytes)) (h : Heap) : ∃ es new, (newElems l : CM ε _) h = .ok es (h ++ new) ∧
    ElemsAt (h ++ new) es l ∧ elemIds es = List.range' h.length new.length ∧ ∀ b ∈ new, b.isSome := by
  induction l generalizing h with
  | nil => exact ⟨[], [], by simp [newElems], trivial, rfl, by simp⟩
  | cons a l ih =>
    obtain ⟨n, b⟩ := a
    obtain ⟨d, n1, h1, h2, h3, h4⟩ := data_new (ε := ε) b h
    obtain ⟨es, n2, k1, k2, k3, k4⟩ := ih (h ++ n1)
    refine ⟨⟨CNetwork.ofRust n, d⟩ :: es, n1 ++ n2, ?_, ⟨rfl, ?_, ?_⟩, ?_, ?_⟩
    · rw [newElems, CM.bind_ok h1, CM.bind_ok k1, CM.pure_apply, List.append_assoc]
    · rw [← List.append_assoc]; exact bytesAt_append n2 h2
    · rw [← List.append_assoc]; exact k2
    · have : elemIds (⟨CNetwork.ofRust n, d⟩ :: es) = ptrIds d.ptr ++ elemIds es := by simp [elemIds]
      rw [this, h3, k3, List.length_append, List.length_append, List.range'_append_1]
    · intro b hb
      rcases List.mem_append.mp hb with hb | hb
      exacts [h4 b hb, k4 b hb]

theorem word_pos (W : Build) : 0 < W.word := by rcases W.word_ok with h | h <;> omega

theorem makes_backup {ε} (W : Build) (l : List (Network × Bytes)) : Makes (ε := ε) W .backup (KeyBackupPtr.new W l) l := by
  intro h
  refine ⟨fun _ => ?_, fun hf => absurd trivial hf⟩
  obtain ⟨es, n1, h1, h2, h3, h4⟩ := newElems_spec (ε := ε) l h
  have hlen := elemsAt_length h2
  by_cases hb : l = []
  · subst hb
    obtain rfl : es = [] := by simpa using hlen
    have : n1 = [] := by
      cases n1 with
      | nil => rfl
      | cons a n => simp [elemIds, List.range'] at h3
    subst this
    refine ⟨⟨.dangling, 0⟩, [], ?_, ⟨rfl, .inl ⟨rfl, rfl⟩⟩, rfl, by simp⟩
    rw [KeyBackupPtr.new, CM.bind_ok h1]
    simp [CM.bind_apply, CM.alloc, elemsLayout]
  · have hl : l.length ≠ 0 := by simpa using hb
    have hw := word_pos W
    have hnz : 3 * W.word * es.length ≠ 0 := by
      rw [hlen]; exact Nat.mul_ne_zero (by omega) hl
    refine ⟨⟨.to (h ++ n1).length, es.length⟩, n1 ++ [some ⟨elemsLayout W es.length, .elems es⟩], ?_, ⟨hlen, .inr ⟨hb, (h ++ n1).length, es, rfl, ?_, ?_⟩⟩, ?_, ?_⟩
    · rw [KeyBackupPtr.new, CM.bind_ok h1]
      simp only [CM.bind_apply, CM.alloc, elemsLayout, CM.pure_apply]
      rw [if_neg hnz]
      simp
    · rw [← List.append_assoc, ← hlen]; exact live_new ..
    · rw [← List.append_assoc]; exact elemsAt_append _ h2
    · have hlv := live_new (h ++ n1) (elemsLayout W es.length) (.elems es)
      rw [← List.append_assoc]
      simp only [owned]
      rw [show ((h ++ n1) ++ [some (Block.mk (elemsLayout W es.length) (.elems es))])[(h ++ n1).length]? = _ from hlv]
      dsimp only
      rw [h3, List.length_append, List.length_append, List.length_singleton, ← List.range'_append_1]
      rfl
    · intro b hb
      rcases List.mem_append.mp hb with hb | hb
      · exact h4 b hb
      · simp at hb; subst hb; rfl

theorem makes_info {ε} (W : Build) (s : Str) (l : Language) :
    Makes (ε := ε) W .info (do let l ← CM.lift (Res.ofPanic (CLanguage.ofRust l)); MnemonicInfoPtr.new s l) (s, l) := by
  intro h
  obtain ⟨cl, e1, e2⟩ : ∃ cl, CLanguage.ofRust l = some cl ∧ cl.num = rustNum l := by
    cases l <;> exact ⟨_, rfl, rfl⟩
  rw [e1]
  obtain ⟨h1, h2⟩ := makes_text (ε := ε) W s h
  have e3 : (CM.lift (Res.ofPanic (some cl)) : CM ε CLanguage) h = .ok cl h := rfl
  refine ⟨fun hf => ?_, fun hf => ?_⟩
  · obtain ⟨v, new, k1, k2, k3, k4⟩ := h1 hf
    refine ⟨⟨v, cl⟩, new, ?_, ⟨k2, e2⟩, ?_, k4⟩
    · rw [CM.bind_ok e3, MnemonicInfoPtr.new, CM.bind_ok k1]; rfl
    · obtain ⟨-, i, rfl, hl⟩ := k2
      have : isLive (h ++ new) (.to i) = true := by
        simp only [isLive]; rw [show (h ++ new)[i]? = _ from hl]; rfl
      simpa [owned, this] using k3
  · rw [CM.bind_ok e3, MnemonicInfoPtr.new, CM.bind_panic (h2 hf)]

/-! ### The guard -/

/-- A failed call: the error structure with its text, or a panic out of the function when the text has a NUL. -/
def failed {α} (ty : ErrorType) (s : Str) (val : α) (h : Heap) : CallOut α :=
  if (0 : UInt8) ∈ Str.utf8 s then .unwind h
  else .ret false val ⟨ty, .to h.length⟩ (h ++ [some ⟨textLayout (Str.utf8 s).length, .text (Str.utf8 s)⟩])

/-- The end of a call, from the end of its body. -/
def settle {α} (x : Ctx) (val : α) (err : ErrorPtr) : Out Error α → CallOut α
  | .ok a h' => .ret true a err h'
  | .err e h' => failed (errorType e) (e.display x.texts) val h'
  | .panic h' => failed .panic x.panic.message val h'
  | .ub => .ub

theorem respond_result {α} (x : Ctx) (body : CM Error α) (val : α) (err : ErrorPtr) (h : Heap) :
    respond (handleExceptionResult x body) val err h = settle x val err (body h) := by
  unfold settle respond handleExceptionResult
  cases body h with
  | ok a h' => rfl
  | err e h' =>
    dsimp only
    unfold failed
    by_cases hn : (0 : UInt8) ∈ Str.utf8 (e.display x.texts)
    · rw [if_pos hn]
      simp only [ErrorPtr.new, CM.bind_apply, toCstr, if_pos hn, CM.lift]
    · rw [if_neg hn]
      simp only [ErrorPtr.new, CM.bind_apply, toCstr, if_neg hn, CM.alloc, textLayout]
      rfl
  | panic h' =>
    dsimp only
    unfold failed
    by_cases hn : (0 : UInt8) ∈ Str.utf8 x.panic.message
    · rw [if_pos hn]
      simp only [ErrorPtr.panic, CM.bind_apply, toCstr, if_pos hn, CM.lift]
    · rw [if_neg hn]
      simp only [ErrorPtr.panic, CM.bind_apply, toCstr, if_neg hn, CM.alloc, textLayout]
      rfl
  | ub => rfl

theorem respond_plain {α} (x : Ctx) (body : CM Empty α) (val : α) (err : ErrorPtr) (h : Heap) :
    respond (handleException x body) val err h = match body h with
      | .ok a h' => .ret true a err h'
      | .err e _ => nomatch e
      | .panic h' => failed .panic x.panic.message val h'
      | .ub => .ub := by
  rw [handleException]
  refine (respond_result x _ val err h).trans ?_
  cases body h with
  | err e => cases e
  | _ => rfl

/-! ### Each call -/

/-- What a call does, given the outcome of the library call and how the value is made. -/
def after {α : Type} (x : Ctx) {k : Kind} (mk : α → CM Error (Val k)) (val : Val k) (err : ErrorPtr) (res : Res Error α) (h : Heap) :
    CallOut (Val k) :=
  match res with
  | .ok c => settle x val err (mk c h)
  | .err e => failed (errorType e) (e.display x.texts) val h
  | .panic => failed .panic x.panic.message val h

theorem withRng_same {W : Build} {h : Heap} {p : Ptr} {o : Option Kind} {t : Target} (ht : Names W h p o t) : withRng h t p t.rng = h := by
  cases ht with
  | manager i m r hp hl =>
    subst hp
    simp only [withRng, Target.rng]
    apply List.ext_getElem?
    intro j
    rw [List.getElem?_modify]
    by_cases hj : i = j
    · subst hj
      rw [show h[i]? = _ from hl]; simp
    · cases h[j]? <;> simp [hj]
  | _ => rfl

theorem onManager_null {ε α} (f : Manager → RM ε α) (h : Heap) : onManager .null f h = .panic h := rfl

theorem onManager_live {ε α} {W : Build} {h : Heap} {i : Nat} {M : Manager} {r : Rng} (hl : Live h i W.manager (.manager M r))
    (f : Manager → RM ε α) :
    onManager (.to i) f h = CM.lift ((f M).run r).1 (withRng h (.manager M r) (.to i) ((f M).run r).2) := by
  simp only [onManager]
  rw [live_at hl]
  dsimp only
  congr 1
  simp only [withRng]
  apply List.ext_getElem?
  intro j
  rw [List.getElem?_modify, List.getElem?_set]
  by_cases hj : i = j
  · subst hj
    rw [show h[i]? = _ from hl]
    simp [live_lt hl]
  · cases h[j]? <;> simp [hj]

theorem onManager_ok {ε α} {W : Build} {h : Heap} {i : Nat} {M : Manager} {r : Rng} (hl : Live h i W.manager (.manager M r)) (a : α) :
    onManager (.to i) (fun _ => (RM.lift (.ok a) : RM ε α)) h = .ok a h := by
  rw [onManager_live hl]
  have := withRng_same (Names.manager (W := W) (p := .to i) i M r rfl hl)
  simp only [RM.run_lift, CM.lift]
  exact congrArg _ this

theorem keychainRef_live {ε} {W : Build} {h : Heap} {i : Nat} {k : Keychain} (hl : Live h i W.keychain (.keychain k)) :
    (keychainRef (.to i) : CM ε Keychain) h = .ok k h := by
  simp only [keychainRef]
  rw [live_at hl]

/-- How each function makes its value. -/
def Fn.mk (W : Build) : {k : Kind} → Fn k → Content k → CM Error (Val k)
  | .path, _, c => pure (CKeyPath.ofRust c)
  | .bool, _, c => pure c
  | .text, _, c => toCstr c
  | .data, _, c => DataPtr.new c
  | .networks, _, c => NetworksPtr.new c
  | .keychain, _, c => keychainNew W c
  | .manager, _, c => managerNew W c.1 c.2
  | .backup, _, c => KeyBackupPtr.new W c
  | .info, _, c => do let l ← CM.lift (Res.ofPanic (CLanguage.ofRust c.2)); MnemonicInfoPtr.new c.1 l
  | .error, _, _ => CM.ub

theorem Fn.makes (W : Build) {k : Kind} (f : Fn k) (c : Content k) : Makes W k (Fn.mk W f c) c := by
  cases k with
  | path => exact makes_path W c
  | bool => exact makes_bool W c
  | text => exact makes_text W c
  | data => exact makes_data W c
  | networks => exact makes_networks W c
  | keychain => exact makes_keychain W c
  | manager => exact makes_manager W c.1 c.2
  | backup => exact makes_backup W c
  | info => exact makes_info W c.1 c.2
  | error => nomatch f

theorem CLanguage.rust_eq (l : CLanguage) : l.rust = some (language l) := by cases l <;> rfl

theorem text_rust {ε} (s : CText) (h : Heap) : (s.rust : CM ε Str) h = match Json.ofUtf8 s.val with
    | some t => .ok t h
    | none => .panic h := by
  unfold CText.rust CM.lift
  cases Json.ofUtf8 s.val <;> rfl

theorem run_decode {α} (s : CText) (f : Str → RM Error α) (r : Rng) : (decode s f).run r = match Json.ofUtf8 s.val with
    | some t => (f t).run r
    | none => (.panic, r) := by
  unfold decode
  cases Json.ofUtf8 s.val <;> rfl

/-- The end of a manager call: run the library function, then make the value. -/
theorem manager_end {k : Kind} {W : Build} {x : Ctx} {h : Heap} {i : Nat} {M : Manager} {r : Rng} {α : Type}
    (hl : Live h i W.manager (.manager M r)) (prog : Manager → RM Error α) (mk : α → CM Error (Val k)) (val : Val k) (err : ErrorPtr) :
    settle x val err ((onManager (.to i) prog >>= mk) h) =
    after x mk val err ((prog M).run r).1 (withRng h (.manager M r) (.to i) ((prog M).run r).2) := by
  rw [CM.bind_apply, onManager_live hl]
  cases ((prog M).run r).1 with
  | ok a => rfl
  | err e => rfl
  | panic => rfl

theorem path_end {x : Ctx} {W : Build} (f : Fn .path) (r : Res KeyPath.Error KeyPath.Path) (val : CKeyPath) (err : ErrorPtr) (h : Heap) :
    respond (handleExceptionResult x (pathResult r)) val err h = after x (Fn.mk W f) val err (r.mapErr .keyPathError) h := by
  rw [respond_result]
  cases r <;> rfl

theorem Fn.call_eq (W : Build) (x : Ctx) (p : Ptr) {k : Kind} (f : Fn k) (val : Val k) (err : ErrorPtr) (h : Heap) (t : Target)
    (ht : Names W h p f.handle t) :
    f.call W x p val err h = after x (Fn.mk W f) val err ((f.lib W x t).run t.rng).1 (withRng h t p ((f.lib W x t).run t.rng).2) := by
  cases f with
  | keypathFromString s =>
    cases ht
    show respond (handleExceptionResult x _) val err h = _
    rw [respond_result, CM.bind_apply, text_rust]
    simp only [Fn.lib, run_decode]
    cases Json.ofUtf8 s.val with
    | none => rfl
    | some t => exact (respond_result x _ val err h).symm.trans (path_end (W := W) (.keypathFromString s) _ val err h)
  | bitcoinBip44 t a c d => cases ht; exact path_end _ _ val err h
  | bitcoinBip49 t a c d => cases ht; exact path_end _ _ val err h
  | bitcoinBip84 t a c d => cases ht; exact path_end _ _ val err h
  | ethereumNew a => cases ht; exact path_end _ _ val err h
  | ethereumMetamask a => cases ht; exact path_end _ _ val err h
  | cardanoNew a c d => cases ht; exact path_end _ _ val err h
  | networks =>
    show respond (handleException x _) val err h = _
    rw [respond_plain]
    cases ht with
    | null hp hn => subst hn; rfl
    | keychain i k hp hl =>
      subst hp
      rw [CM.bind_ok (keychainRef_live hl)]
      show _ = after x (Fn.mk W .networks) val err (.ok _) h
      simp only [after, Fn.mk]
      simp only [NetworksPtr.new, CM.bind_apply, CM.alloc]
      by_cases hz : (networksLayout (k.networks x.keyObjs).length).size = 0
      · simp only [if_pos hz, CM.pure_apply, settle]
      · simp only [if_neg hz, CM.pure_apply, settle]
  | pubKey n q =>
    show respond (handleExceptionResult x _) val err h = _
    rw [respond_result]
    cases ht with
    | null hp hn => subst hn; rfl
    | keychain i k hp hl =>
      subst hp
      rw [CM.bind_ok (keychainRef_live hl), CM.bind_apply]
      show _ = after x (Fn.mk W (.pubKey n q)) val err (k.pubKey n.rust q.rust) h
      cases k.pubKey n.rust q.rust with
      | ok b =>
        simp only [CM.lift, after, Fn.mk]
      | err e => rfl
      | panic => rfl
  | sign n d q =>
    show respond (handleExceptionResult x _) val err h = _
    rw [respond_result]
    cases ht with
    | null hp hn => subst hn; rfl
    | keychain i k hp hl =>
      subst hp
      rw [CM.bind_ok (keychainRef_live hl), CM.bind_apply]
      show _ = after x (Fn.mk W (.sign n d q)) val err (k.sign n.rust d q.rust) h
      cases k.sign n.rust d q.rust with
      | ok b =>
        simp only [CM.lift, after, Fn.mk]
      | err e => rfl
      | panic => rfl
  | verify n d s q =>
    show respond (handleExceptionResult x _) val err h = _
    rw [respond_result]
    cases ht with
    | null hp hn => subst hn; rfl
    | keychain i k hp hl =>
      subst hp
      rw [CM.bind_ok (keychainRef_live hl)]
      show _ = after x (Fn.mk W (.verify n d s q)) val err (k.verify n.rust d s q.rust) h
      cases k.verify n.rust d s q.rust <;> rfl
  | managerNew r =>
    cases ht
    show respond (handleExceptionResult x _) val err h = _
    rw [respond_result, CM.bind_apply]
    simp only [Fn.lib, RM.run]
    cases Manager.new W.umax W.all with
    | ok m =>
      simp only [CM.lift, after, Fn.mk, Res.map, withRng]
    | err e => rfl
    | panic => rfl
  | hasNetwork n =>
    show respond (handleException x _) val err h = _
    rw [respond_plain]
    cases ht with
    | null hp hn => subst hn; rfl
    | manager i m r hp hl =>
      subst hp
      rw [onManager_live hl]
      rfl
  | generate l =>
    show respond (handleExceptionResult x _) val err h = _
    rw [respond_result]
    cases ht with
    | null hp hn => subst hn; rfl
    | manager i m r hp hl =>
      subst hp
      rw [CLanguage.rust_eq]
      exact manager_end hl _ _ val err
  | fromSeed s pw =>
    show respond (handleExceptionResult x _) val err h = _
    rw [respond_result]
    cases ht with
    | null hp hn => subst hn; rfl
    | manager i m r hp hl =>
      subst hp
      have hw := withRng_same (Names.manager (W := W) (p := .to i) i m r rfl hl)
      rw [CM.bind_ok (onManager_ok hl ()), CM.bind_apply, text_rust]
      simp only [Fn.lib, onM, run_decode]
      cases Json.ofUtf8 pw.val with
      | none => dsimp only; rw [hw]; rfl
      | some t => exact manager_end hl (fun M => M.keychainDataFromSeed W.E x.factories x.keys s t) _ val err
  | fromMnemonic s pw l =>
    show respond (handleExceptionResult x _) val err h = _
    rw [respond_result]
    cases ht with
    | null hp hn => subst hn; rfl
    | manager i m r hp hl =>
      subst hp
      have hw := withRng_same (Names.manager (W := W) (p := .to i) i m r rfl hl)
      rw [CM.bind_ok (onManager_ok hl ()), CM.bind_apply, text_rust]
      simp only [Fn.lib, onM, run_decode]
      cases Json.ofUtf8 s.val with
      | none => dsimp only; rw [hw]; rfl
      | some text =>
        dsimp only
        rw [CM.bind_apply, text_rust, CLanguage.rust_eq]
        cases Json.ofUtf8 pw.val with
        | none => dsimp only; rw [hw]; rfl
        | some t => exact manager_end hl (fun M => M.keychainDataFromMnemonic W.E x.factories x.keys text t (some (language l))) _ val err
  | «open» d pw =>
    show respond (handleExceptionResult x _) val err h = _
    rw [respond_result]
    cases ht with
    | null hp hn => subst hn; rfl
    | manager i m r hp hl =>
      subst hp
      have hw := withRng_same (Names.manager (W := W) (p := .to i) i m r rfl hl)
      rw [CM.bind_ok (onManager_ok hl ()), CM.bind_apply, text_rust]
      simp only [Fn.lib, onM, run_decode]
      cases Json.ofUtf8 pw.val with
      | none => dsimp only; rw [hw]; rfl
      | some t => exact manager_end hl (fun M => RM.lift (M.keychainFromData W.E x.keys d t)) _ val err
  | add d pw n =>
    show respond (handleExceptionResult x _) val err h = _
    rw [respond_result]
    cases ht with
    | null hp hn => subst hn; rfl
    | manager i m r hp hl =>
      subst hp
      have hw := withRng_same (Names.manager (W := W) (p := .to i) i m r rfl hl)
      rw [CM.bind_ok (onManager_ok hl ()), CM.bind_apply, text_rust]
      simp only [Fn.lib, onM, run_decode]
      cases Json.ofUtf8 pw.val with
      | none => dsimp only; rw [hw]; rfl
      | some t => exact manager_end hl (fun M => M.addNetwork W.E x.keys d t n.rust) _ val err
  | change d o n =>
    show respond (handleExceptionResult x _) val err h = _
    rw [respond_result]
    cases ht with
    | null hp hn => subst hn; rfl
    | manager i m r hp hl =>
      subst hp
      have hw := withRng_same (Names.manager (W := W) (p := .to i) i m r rfl hl)
      rw [CM.bind_ok (onManager_ok hl ()), CM.bind_apply, text_rust]
      simp only [Fn.lib, onM, run_decode]
      cases Json.ofUtf8 o.val with
      | none => dsimp only; rw [hw]; rfl
      | some text =>
        dsimp only
        rw [CM.bind_apply, text_rust]
        cases Json.ofUtf8 n.val with
        | none => dsimp only; rw [hw]; rfl
        | some t => exact manager_end hl (fun _ => Manager.changePassword W.E d text t) _ val err
  | keysData d pw =>
    show respond (handleExceptionResult x _) val err h = _
    rw [respond_result]
    cases ht with
    | null hp hn => subst hn; rfl
    | manager i m r hp hl =>
      subst hp
      have hw := withRng_same (Names.manager (W := W) (p := .to i) i m r rfl hl)
      rw [CM.bind_ok (onManager_ok hl ()), CM.bind_apply, text_rust]
      simp only [Fn.lib, onM, run_decode]
      cases Json.ofUtf8 pw.val with
      | none => dsimp only; rw [hw]; rfl
      | some t => exact manager_end hl (fun _ => RM.lift (Manager.getKeysData W.E x.keys d t)) _ val err
  | retrieve d pw =>
    show respond (handleExceptionResult x _) val err h = _
    rw [respond_result]
    cases ht with
    | null hp hn => subst hn; rfl
    | manager i m r hp hl =>
      subst hp
      have hw := withRng_same (Names.manager (W := W) (p := .to i) i m r rfl hl)
      rw [CM.bind_ok (onManager_ok hl ()), CM.bind_apply, text_rust]
      simp only [Fn.lib, onM, run_decode]
      cases Json.ofUtf8 pw.val with
      | none => dsimp only; rw [hw]; rfl
      | some t => exact manager_end hl (fun _ => RM.lift (Manager.retrieveMnemonic W.E d t)) _ val err

end KC.C
