import Verif.Props.CSession
import Verif.Props.Hex
import Verif.Props.Mnemonic
import Verif.Model.Bip39Text
import Verif.Spec.Secrets
/-
C85: what refusals and printing tell about secrets.
-/
namespace KC.Props
open KC.Manager KC.Spec KC.Spec.Wallet KC.Spec.Crypt KC.C KC.Spec.C KC.Spec.Secrets KC.Bip39
open KC.Mnemonic (Language)

/-! ### Passwords -/

theorem decrypt_wrong {E : Env} {blob : Bytes} {pw : Str} (h : ¬ OpensWith E blob pw) :
    (Crypt.decrypt E.H E.A blob pw).mapErr Error.ofCrypt = .err (if blob.length ≤ 60 then .notEnoughData else .wrongPassword) := by
  cases hd : Crypt.decrypt E.H E.A blob pw with
  | ok d => exact absurd ⟨d, decrypt_opens.mpr hd⟩ h
  | panic => exact absurd hd (C33_no_panic _ _ _ _)
  | err e =>
    cases e with
    | notEnoughData => rw [if_pos ((C33_not_enough _ _ _ _).mp hd)]; rfl
    | decryptionFailed =>
      rw [if_neg]
      · rfl
      · intro hl
        rw [(C33_not_enough _ _ _ _).mpr hl] at hd
        cases hd

theorem data_wrong {E : Env} {blob : Bytes} {pw : Str} (h : ¬ OpensWith E blob pw) :
    keychainDataFromBytes E blob pw = .err (if blob.length ≤ 60 then .notEnoughData else .wrongPassword) := by
  rw [keychainDataFromBytes, decrypt_wrong h]
  rfl

/-- C85: for a given blob there is one error that every operation gives for every password that does not open it.  It depends on the size of
the blob only; so a failure tells about the password that it is wrong, and nothing else.  No random bytes are drawn. -/
theorem C85_password (E : Env) (blob : Bytes) : ∃ e, e = (if blob.length ≤ 60 then Error.notEnoughData else Error.wrongPassword) ∧
    ∀ pw, ¬ OpensWith E blob pw → (∀ it M, keychainFromData E it M blob pw = .err e) ∧ retrieveMnemonic E blob pw = .err e ∧
      (∀ it, getKeysData E it blob pw = .err e) ∧ (∀ new r, (changePassword E blob pw new).run r = (.err e, r)) ∧
      (∀ it M n r, (addNetwork E it M blob pw n).run r = (.err (if M.hasNetwork n then e else .networkIsNotSupported n), r)) := by
  refine ⟨_, rfl, fun pw h => ⟨fun it M => ?_, ?_, fun it => ?_, fun new r => ?_, fun it M n r => ?_⟩⟩
  · rw [keychainFromData, data_wrong h]; rfl
  · rw [retrieveMnemonic, data_wrong h]; rfl
  · rw [getKeysData, data_wrong h]; rfl
  · rw [changePassword, decrypt_wrong h, RM.run_bind, RM.run_lift]
  · rw [addNetwork, hasNetwork, RM.run_bind, RM.run_lift]
    cases M.factories.get n with
    | none => rfl
    | some f =>
      show (RM.run (RM.lift _ >>= _) r) = _
      rw [data_wrong h, RM.run_bind, RM.run_lift]
      rfl

theorem rust_text {ε} {s : CText} {t : Str} (h : Str.utf8 t = s.val) : (s.rust : CM ε Str) = pure t := by
  rw [CText.rust, ← h, Json.ofUtf8_utf8]
  rfl

theorem pure_then {ε α β : Type} (a : α) (f : α → CM ε β) : (pure a : CM ε α) >>= f = f a := rfl

theorem onManager_congr {ε α : Type} (p : Ptr) {f g : Manager → RM ε α} (h : ∀ M r, (f M).run r = (g M).run r) : onManager p f = onManager p g := by
  funext hp
  cases p <;> simp only [onManager, h]

/-- C85: through C, two wrong passwords cannot be told apart by anything: return value, the caller's variables and the whole of the library's
memory are the same after the call. -/
theorem C85_password_c (W : Build) (x : Ctx) (p : Ptr) {k : Kind} (f g : Fn k) (hfg : OtherPassword W.E f g) (val : Val k) (err : ErrorPtr)
    (h : Heap) : f.call W x p val err h = g.call W x p val err h := by
  cases hfg with
  | «open» blob a b ha hb =>
    obtain ⟨t, ht, hw⟩ := ha
    obtain ⟨t', ht', hw'⟩ := hb
    obtain ⟨e, -, he⟩ := C85_password W.E blob
    simp only [Fn.call, keychainManagerKeychainFromData, rust_text ht, rust_text ht', pure_then, (he t hw).1, (he t' hw').1]
  | add blob a b n ha hb =>
    obtain ⟨t, ht, hw⟩ := ha
    obtain ⟨t', ht', hw'⟩ := hb
    obtain ⟨e, -, he⟩ := C85_password W.E blob
    simp only [Fn.call, keychainManagerAddNetwork, rust_text ht, rust_text ht', pure_then]
    rw [onManager_congr p fun M r => ((he t hw).2.2.2.2 x.keys M n.rust r).trans ((he t' hw').2.2.2.2 x.keys M n.rust r).symm]
  | change blob a b n n' ha hb hn hn' =>
    obtain ⟨t, ht, hw⟩ := ha
    obtain ⟨t', ht', hw'⟩ := hb
    obtain ⟨u, hu⟩ := hn
    obtain ⟨u', hu'⟩ := hn'
    obtain ⟨e, -, he⟩ := C85_password W.E blob
    simp only [Fn.call, keychainManagerChangePassword, rust_text ht, rust_text ht', rust_text hu, rust_text hu', pure_then]
    rw [onManager_congr p fun _ r => ((he t hw).2.2.2.1 u r).trans ((he t' hw').2.2.2.1 u' r).symm]
  | keysData blob a b ha hb =>
    obtain ⟨t, ht, hw⟩ := ha
    obtain ⟨t', ht', hw'⟩ := hb
    obtain ⟨e, -, he⟩ := C85_password W.E blob
    simp only [Fn.call, keychainManagerGetKeysData, rust_text ht, rust_text ht', pure_then, (he t hw).2.2.1, (he t' hw').2.2.1]
  | retrieve blob a b ha hb =>
    obtain ⟨t, ht, hw⟩ := ha
    obtain ⟨t', ht', hw'⟩ := hb
    obtain ⟨e, -, he⟩ := C85_password W.E blob
    simp only [Fn.call, keychainManagerRetrieveMnemonic, rust_text ht, rust_text ht', pure_then, (he t hw).2.1, (he t' hw').2.1]

/-! ### Phrases -/

theorem run_made_err {E : Env} {itF : Iter (Network × Factory)} {itK : Iter (Network × Bytes)} {M : Manager} {t pw : Str} {l : Language}
    {e : Mnemonic.Error} (h : Mnemonic.seedFromMnemonic E.H t [] M.seedSize l = .err e) (r : Rng) :
    (M.keychainDataFromMnemonic E itF itK t pw (some l)).run r = (.err (.mnemonicError e), r) := by
  have hs : M.seedFromData E none (some t) (some l) = .err (.mnemonicError e) := by
    show Res.mapErr Error.mnemonicError (Mnemonic.seedFromMnemonic E.H t [] M.seedSize l) = _
    rw [h]
    rfl
  rw [keychainDataFromMnemonic, newKeychainData, Option.getD_some, hs, RM.run_bind, RM.run_lift]

/-- C85: a text with an unknown word: the error repeats the first one, and depends on nothing else, neither on the words before and after,
nor on their number, nor on the password. -/
theorem C85_word (E : Env) (l : Language) (t w : Str) (h : FirstUnknown l t w) (itF : Iter (Network × Factory)) (itK : Iter (Network × Bytes))
    (M : Manager) (pw : Str) (r : Rng) :
    (M.keychainDataFromMnemonic E itF itK t pw (some l)).run r = (.err (.mnemonicError (.unsupportedWordFound w)), r) := by
  obtain ⟨pre, post, rfl, h1, h2, h3, h4⟩ := h
  exact run_made_err ((C13_refused _ _ _ _).2 pre post w h1 h2 h3 h4) r

/-- C85: a text of known words in a wrong number: the error tells the number of words (and the one wanted), nothing else. -/
theorem C85_count (E : Env) (l : Language) (t : Str) (n : Nat) (h : KnownWords l t n) (itF : Iter (Network × Factory)) (itK : Iter (Network × Bytes))
    (M : Manager) (pw : Str) (r : Rng) (hn : n ∉ wordCounts ∨ n ≠ M.seedSize / 32 * 3) :
    (M.keychainDataFromMnemonic E itF itK t pw (some l)).run r = (.err (.mnemonicError (if n ∉ wordCounts then .wrongNumberOfWords n
      else if n < M.seedSize / 32 * 3 then .mnemonicToShort n (M.seedSize / 32 * 3) else .mnemonicToLong n (M.seedSize / 32 * 3))), r) := by
  obtain ⟨ws, h0, rfl, hw, rfl⟩ := h
  apply run_made_err
  by_cases hc : ws.length ∈ wordCounts
  · rw [if_neg (not_not.mpr hc), seed_spaced _ _ _ _ _ hw hc]
    have hne : ws.length ≠ M.seedSize / 32 * 3 := hn.resolve_left (not_not.mpr hc)
    by_cases hlt : ws.length < M.seedSize / 32 * 3
    · rw [if_pos hlt, if_pos hlt]
    · rw [if_neg hlt, if_neg hlt, if_pos (by omega)]
  · rw [if_pos hc]
    exact (C13_refused _ _ _ _).1 ws h0 hw hc

theorem first_bad (P : Str → Prop) (ws : List Str) (h : ¬ ∀ w ∈ ws, P w) :
    ∃ pre w post, ws = pre ++ w :: post ∧ (∀ x ∈ pre, P x) ∧ ¬ P w := by
  induction ws with
  | nil => exact absurd (fun _ h => absurd h (by simp)) h
  | cons x ws ih =>
    by_cases hx : P x
    · obtain ⟨pre, w, post, rfl, h1, h2⟩ := ih (fun hh => h (by simpa [hx] using hh))
      exact ⟨x :: pre, w, post, rfl, by simpa [hx] using h1, h2⟩
    · exact ⟨[], x, ws, rfl, by simp, hx⟩

theorem first_bad_unique (P : Str → Prop) {pre pre' post post' : List Str} {w w' : Str} (e : pre ++ w :: post = pre' ++ w' :: post')
    (h : ∀ x ∈ pre, P x) (h' : ∀ x ∈ pre', P x) (hw : ¬ P w) (hw' : ¬ P w') : w = w' := by
  induction pre generalizing pre' with
  | nil =>
    cases pre' with
    | nil => exact (List.cons.inj e).1
    | cons y pre' => exact absurd (h' w ((List.cons.inj e).1 ▸ List.mem_cons_self ..)) hw
  | cons y pre ih =>
    cases pre' with
    | nil => exact absurd (h w' ((List.cons.inj e).1 ▸ List.mem_cons_self ..)) hw'
    | cons z pre' =>
      exact ih (List.cons.inj e).2 (fun x hx => h x (List.mem_cons_of_mem _ hx)) (fun x hx => h' x (List.mem_cons_of_mem _ hx))

/-- C85: these are all texts that are refused: every text is one of the two, with one word or one number, and is otherwise a phrase, from which
a seed is made. -/
theorem C85_texts (l : Language) (t : Str) :
    ((∃ w, FirstUnknown l t w) ∨ ∃ n, KnownWords l t n) ∧ (∀ w w', FirstUnknown l t w → FirstUnknown l t w' → w = w') ∧
    (∀ n n', KnownWords l t n → KnownWords l t n' → n = n') ∧ (∀ w n, FirstUnknown l t w → ¬ KnownWords l t n) ∧
    ∀ (H : Hashes) (size n : Nat), KnownWords l t n → n ∈ wordCounts → n = size / 32 * 3 → ∃ s, Mnemonic.seedFromMnemonic H t [] size l = .ok s := by
  obtain ⟨ws, h0, rfl, hsp, huniq⟩ := C11_pieces t
  have hunk : ∀ w, FirstUnknown l (spaced ws) w → ∃ pre post, ws = pre ++ w :: post ∧ (∀ x ∈ pre, x ∈ l.toDict.words) ∧ w ∉ l.toDict.words := by
    rintro w ⟨pre, post, e, h1, h2, h3, h4⟩
    refine ⟨pre, post, (huniq (pre ++ w :: post) (by simp) e fun x hx => ?_).symm, h1, h2⟩
    rcases List.mem_append.mp hx with hx | hx
    · exact l.good.noSep x (h1 x hx)
    · rcases List.mem_cons.mp hx with rfl | hx
      · exact h3
      · exact h4 x hx
  have hkn : ∀ n, KnownWords l (spaced ws) n → (∀ w ∈ ws, w ∈ l.toDict.words) ∧ ws.length = n := by
    rintro n ⟨ws', h1, e, h2, h3⟩
    obtain rfl := huniq ws' h1 e fun w hw => l.good.noSep w (h2 w hw)
    exact ⟨h2, h3⟩
  refine ⟨?_, ?_, ?_, ?_, ?_⟩
  · by_cases hk : ∀ w ∈ ws, w ∈ l.toDict.words
    · exact .inr ⟨_, ws, h0, rfl, hk, rfl⟩
    · obtain ⟨pre, w, post, rfl, h1, h2⟩ := first_bad (fun w => w ∈ l.toDict.words) ws hk
      exact .inl ⟨w, pre, post, rfl, h1, h2, hsp w (by simp), fun x hx => hsp x (by simp [hx])⟩
  · intro w w' h h'
    obtain ⟨pre, post, e, h1, h2⟩ := hunk w h
    obtain ⟨pre', post', e', h1', h2'⟩ := hunk w' h'
    rw [e] at e'
    exact first_bad_unique (fun w => w ∈ l.toDict.words) e' h1 h1' h2 h2'
  · intro n n' h h'
    exact (hkn n h).2.symm.trans (hkn n' h').2
  · intro w n h h'
    obtain ⟨pre, post, e, -, h2⟩ := hunk w h
    exact h2 ((hkn n h').1 w (by rw [e]; simp))
  · intro H size n h hn he
    obtain ⟨hk, hl⟩ := hkn n h
    exact C14_accepts_all H [] size l ws hk (by rw [hl]; exact hn) (by rw [hl]; exact he)

/-- C85: through C, two refused phrases with the same first unknown word, or of known words in the same number, cannot be told apart. -/
theorem C85_phrase_c (W : Build) (x : Ctx) (i : Nat) (M : Manager) (r : Rng) (h : Heap) (hl : Live h i W.manager (.manager M r))
    (m m' pw pw' : CText) (lang : CLanguage) (ho : OtherPhrase M.seedSize m m' pw pw' lang) (val : DataPtr) (err : ErrorPtr) :
    (Fn.fromMnemonic m pw lang).call W x (.to i) val err h = (Fn.fromMnemonic m' pw' lang).call W x (.to i) val err h := by
  obtain ⟨t, t', l, ht, ht', ⟨u, hu⟩, ⟨u', hu'⟩, hlang, hs⟩ := ho
  simp only [Fn.call, keychainManagerKeychainDataFromMnemonic, rust_text ht, rust_text ht', rust_text hu, rust_text hu', pure_then, hlang]
  have key : ∀ r, (M.keychainDataFromMnemonic W.E x.factories x.keys t u (some l)).run r =
      (M.keychainDataFromMnemonic W.E x.factories x.keys t' u' (some l)).run r := by
    intro r
    cases hs with
    | word w h1 h2 => rw [C85_word _ l t w h1, C85_word _ l t' w h2]
    | count n h1 h2 hn => rw [C85_count _ l t n h1 _ _ _ _ _ hn, C85_count _ l t' n h2 _ _ _ _ _ hn]
  have body : ∀ f g : Manager → RM Error Bytes, (∀ r, (f M).run r = (g M).run r) →
      (do let _ ← onManager (.to i) fun _ => RM.lift (.ok ())
          let b ← onManager (.to i) f
          DataPtr.new b : CM Error DataPtr) h =
      (do let _ ← onManager (.to i) fun _ => RM.lift (.ok ())
          let b ← onManager (.to i) g
          DataPtr.new b : CM Error DataPtr) h := by
    intro f g hfg
    rw [CM.bind_ok (onManager_ok hl ()), CM.bind_ok (onManager_ok hl ()), CM.bind_apply, CM.bind_apply, onManager_live hl, onManager_live hl, hfg]
  simp only [respond, handleExceptionResult]
  rw [body (fun M => M.keychainDataFromMnemonic W.E x.factories x.keys t u (some l))
    (fun M => M.keychainDataFromMnemonic W.E x.factories x.keys t' u' (some l)) key]

/-! ### Printing -/

/-- C85: printed for people or for debugging, an entropy or a seed shows all of itself: from the text it is read back. -/
theorem C85_printed (e : Entropy) (s : Seed) :
    (∃ t b, e.display = some t ∧ t.length = 2 * e.bytes.length ∧ Hex.decode t = .ok b ∧ Entropy.fromSlice b = .ok e) ∧
    (∃ t b, s.display = some t ∧ t.length = 128 ∧ Hex.decode t = .ok b ∧ Seed.fromSlice b = .ok s) := by
  constructor
  · obtain ⟨t, h1, h2, -⟩ := C03_encode e.bytes
    obtain ⟨t', h3, h4⟩ := C03_roundtrip e.bytes
    rw [h1] at h3
    obtain rfl := Option.some.inj h3
    refine ⟨t, e.bytes, h1, h2, h4, ?_⟩
    have hl := e.len
    rw [Entropy.fromSlice, show e.bytes.length * 8 = e.ty.toKeySize by rw [hl]; cases e.ty <;> rfl, (C07_consistent e.ty).2.1, Res.bind_ok,
      Entropy.new, dif_pos (by omega)]
    obtain ⟨ty, bytes, hb⟩ := e
    simp only [Res.ofPanic]
    congr 2
    exact List.take_of_length_le (by simp only at hl; omega)
  · obtain ⟨t, h1, h2, -⟩ := C03_encode s.val
    obtain ⟨t', h3, h4⟩ := C03_roundtrip s.val
    rw [h1] at h3
    obtain rfl := Option.some.inj h3
    have hl : s.val.length = 64 := s.2
    obtain ⟨s', h5, h6⟩ := (C12_from_slice s.val).1 hl
    exact ⟨t, s.val, h1, by rw [h2, hl], h4, by rw [h5, Subtype.ext h6]⟩

/-- Non-vacuity of C85: 61 ones do not open with two passwords that have nothing in common; two texts with the same first unknown word; and
a printed entropy. -/
theorem C85_case : ¬ OpensWith toyEnv (List.replicate 61 1) [] ∧ ¬ OpensWith toyEnv (List.replicate 61 1) "another".toList ∧
    SameFault .english 128 "zoo zoom".toList "abandon about zoom abandom".toList ∧ SameFault .english 128 "zoo zoo".toList "abandon about".toList ∧
    (⟨.w12, List.replicate 15 0 ++ [0xfe], rfl⟩ : Entropy).display = some "000000000000000000000000000000fe".toList := by
  refine ⟨?_, ?_, .word "zoom".toList ?_ ?_, .count 2 ?_ ?_ (.inl (by decide)), by decide +kernel⟩
  · rintro ⟨d, h⟩
    rw [decrypt_opens] at h
    revert h
    generalize hx : Crypt.decrypt toyEnv.H toyEnv.A (List.replicate 61 1) [] = x
    have : x = .err .decryptionFailed := by rw [← hx]; decide +kernel
    rw [this]; nofun
  · rintro ⟨d, h⟩
    rw [decrypt_opens] at h
    revert h
    generalize hx : Crypt.decrypt toyEnv.H toyEnv.A (List.replicate 61 1) "another".toList = x
    have : x = .err .decryptionFailed := by rw [← hx]; decide +kernel
    rw [this]; nofun
  · exact ⟨["zoo".toList], [], by decide +kernel, by decide +kernel, by decide +kernel, by decide +kernel, by simp⟩
  · exact ⟨["abandon".toList, "about".toList], ["abandom".toList], by decide +kernel, by decide +kernel, by decide +kernel, by decide +kernel,
      by decide +kernel⟩
  · exact ⟨["zoo".toList, "zoo".toList], nofun, by decide +kernel, by decide +kernel, rfl⟩
  · exact ⟨["abandon".toList, "about".toList], nofun, by decide +kernel, by decide +kernel, rfl⟩

end KC.Props
