import Verif.Proofs.CApi
import Verif.Proofs.Manager
import Verif.Proofs.Text
import Verif.Spec.CErrors
/-
NUL in the texts of errors.
-/
namespace KC.C
open KC.Spec.C

theorem nul_char (c : Char) : (0 : UInt8) ∈ String.utf8EncodeChar c ↔ c = '\x00' := by
  by_cases h : c.toNat < 128
  · rw [utf8_ascii c h]
    constructor
    · intro h0
      have h0 : (0 : UInt8) = UInt8.ofNat c.toNat := by simpa using h0
      have := congrArg UInt8.toNat h0
      rw [UInt8.toNat_ofNat_of_lt' (by show c.toNat < 256; omega)] at this
      apply Char.ext
      apply UInt32.toNat.inj
      exact this.symm
    · rintro rfl; decide
  · constructor
    · intro h0
      exfalso
      have h1 : ¬ c.val.toNat ≤ 127 := by
        intro h'; exact h (by show c.val.toNat < 128; omega)
      revert h0
      have hc : c.val.toNat < 1114112 := by
        have := c.valid
        rcases this with h | h
        · have := h; omega
        · exact h.2
      simp only [String.utf8EncodeChar, h1, if_false]
      have key : ∀ n : Nat, 0 < n → n < 256 → (0 : UInt8) ≠ n.toUInt8 := by
        intro n h0 h1 he
        have := congrArg UInt8.toNat he
        rw [show n.toUInt8 = UInt8.ofNat n from rfl, UInt8.toNat_ofNat_of_lt' (by show n < 256; omega)] at this
        simp at this; omega
      split
      · simp only [List.mem_cons, List.not_mem_nil, or_false]
        rintro (h | h) <;> exact key _ (by omega) (by omega) h
      · split
        · simp only [List.mem_cons, List.not_mem_nil, or_false]
          rintro (h | h | h) <;> exact key _ (by omega) (by omega) h
        · simp only [List.mem_cons, List.not_mem_nil, or_false]
          rintro (h | h | h | h) <;> exact key _ (by omega) (by omega) h
    · rintro rfl; exact absurd (by decide) h

theorem nul_utf8 (s : Str) : (0 : UInt8) ∈ Str.utf8 s ↔ '\x00' ∈ s := by
  induction s with
  | nil => simp
  | cons c s ih =>
    rw [Str.utf8_cons, List.mem_append, nul_char, ih, List.mem_cons]
    constructor
    · rintro (h | h)
      exacts [.inl h.symm, .inr h]
    · rintro (h | h)
      exacts [.inl h.symm, .inr h]

theorem nul_showNat (n : Nat) : '\x00' ∉ showNat n := by
  intro h
  have := Nat.isDigit_of_mem_toDigits (by omega) (by omega) h
  exact absurd this (by decide)

theorem nul_showBin8 (n : Nat) : '\x00' ∉ showBin8 n := by
  intro h
  simp only [showBin8, List.mem_append, List.mem_replicate] at h
  rcases h with h | h
  · exact absurd h.2 (by decide)
  · exact absurd (Nat.isDigit_of_mem_toDigits (by omega) (by omega) h) (by decide)

/-- Closes `'\x00' ∉ t` for a concatenation of constants and numbers. -/
macro "no_nul" : tactic => `(tactic| (
  simp only [List.mem_append, not_or]
  repeat' apply And.intro
  all_goals first | exact nul_showNat _ | exact nul_showBin8 _ | decide +kernel))

theorem nul_bip39 (e : Bip39.Error) : '\x00' ∉ e.display := by
  cases e <;> unfold Bip39.Error.display <;> no_nul

theorem nul_secp (e : Secp.KeyError) : '\x00' ∉ e.display := by
  cases e <;> unfold Secp.KeyError.display <;> no_nul

theorem nul_cardano (e : Cardano.KeyError) : '\x00' ∉ e.display := by
  cases e <;> unfold Cardano.KeyError.display <;> no_nul

theorem nul_parse (e : KeyPath.ParseIntError) : '\x00' ∉ e.display := by
  cases e <;> unfold KeyPath.ParseIntError.display <;> no_nul

theorem nul_network (n : Network) : '\x00' ∉ n.display := by
  unfold Network.display; no_nul

theorem nul_right {a b : Str} (h : '\x00' ∉ a) : '\x00' ∈ a ++ b ↔ '\x00' ∈ b := by
  rw [List.mem_append]; exact ⟨fun h' => h'.resolve_left h, .inr⟩
theorem nul_left {a b : Str} (h : '\x00' ∉ b) : '\x00' ∈ a ++ b ↔ '\x00' ∈ a := by
  rw [List.mem_append]; exact ⟨fun h' => h'.resolve_right h, .inl⟩

theorem quotes_nil {t : Str} (h : '\x00' ∉ t) : '\x00' ∈ t ↔ ∃ s ∈ ([] : List Str), '\x00' ∈ s :=
  ⟨fun h' => absurd h' h, fun ⟨_, h', _⟩ => absurd h' (List.not_mem_nil)⟩
theorem quotes_one {t m : Str} (h : '\x00' ∈ t ↔ '\x00' ∈ m) : '\x00' ∈ t ↔ ∃ s ∈ [m], '\x00' ∈ s := by
  rw [h]; simp only [List.mem_singleton, exists_eq_left]

theorem nul_path (e : KeyPath.Error) : '\x00' ∈ e.display ↔ ∃ s ∈ pathQuotes e, '\x00' ∈ s := by
  cases e with
  | invalidPathMarker m =>
    refine quotes_one ?_
    unfold KeyPath.Error.display
    rw [nul_left (by decide +kernel), nul_right (by decide +kernel)]
  | parseErrorAtIndex i e =>
    refine quotes_nil ?_
    unfold KeyPath.Error.display
    rw [nul_right (by no_nul)]
    exact nul_parse e
  | _ =>
    refine quotes_nil ?_
    unfold KeyPath.Error.display
    no_nul

theorem nul_mnemonic (e : Mnemonic.Error) : '\x00' ∈ e.display ↔ ∃ s ∈ mnemonicQuotes e, '\x00' ∈ s := by
  cases e with
  | unsupportedWordFound w =>
    refine quotes_one ?_
    unfold Mnemonic.Error.display
    rw [nul_left (by decide +kernel), nul_right (by decide +kernel)]
  | unknownError e =>
    refine quotes_nil ?_
    unfold Mnemonic.Error.display
    rw [nul_right (by decide +kernel)]
    exact nul_bip39 e
  | _ =>
    refine quotes_nil ?_
    unfold Mnemonic.Error.display
    no_nul

theorem nul_key (T : Texts) (e : Key.Error) : '\x00' ∈ e.display T ↔ ∃ s ∈ keyQuotes T e, '\x00' ∈ s := by
  cases e with
  | invalidKeyPath e =>
    unfold Key.Error.display
    rw [nul_right (by decide +kernel)]; exact nul_path e
  | invalidMnemonic e =>
    unfold Key.Error.display
    rw [nul_right (by decide +kernel)]; exact nul_mnemonic e
  | invalidKeySize a b => refine quotes_nil ?_; unfold Key.Error.display; no_nul
  | invalidKeyData e =>
    unfold Key.Error.display
    rw [nul_right (by decide +kernel)]
    cases e with
    | secp e => exact quotes_nil (nul_secp e)
    | cardano e => exact quotes_nil (nul_cardano e)
    | custom c => exact quotes_one Iff.rfl
  | invalidSignatureSize a b => refine quotes_nil ?_; unfold Key.Error.display; no_nul
  | signError e =>
    unfold Key.Error.display
    rw [nul_right (by decide +kernel)]
    cases e with
    | secp e => exact quotes_nil (nul_secp e)
    | cardano e => exact quotes_nil (nul_cardano e)
    | custom c => exact quotes_one Iff.rfl

theorem nul_error (T : Texts) (e : Error) : '\x00' ∈ e.display T ↔ ∃ s ∈ quotes T e, '\x00' ∈ s := by
  cases e with
  | keyDoesNotExist n =>
    refine quotes_nil ?_; unfold Error.display
    rw [nul_left (by decide +kernel), nul_right (by decide +kernel)]; exact nul_network n
  | keyAlreadyExist n =>
    refine quotes_nil ?_; unfold Error.display
    rw [nul_left (by decide +kernel), nul_right (by decide +kernel)]; exact nul_network n
  | networkIsNotSupported n =>
    refine quotes_nil ?_; unfold Error.display
    rw [nul_left (by decide +kernel), nul_right (by decide +kernel)]; exact nul_network n
  | dataError => refine quotes_one ?_; unfold Error.display; rw [nul_right (by decide +kernel)]
  | keyError n e =>
    unfold Error.display
    rw [nul_left (nul_network n), nul_left (by decide +kernel), nul_right (by decide +kernel)]; exact nul_key T e
  | mnemonicError e => unfold Error.display; rw [nul_right (by decide +kernel)]; exact nul_mnemonic e
  | keyPathError e => unfold Error.display; rw [nul_right (by decide +kernel)]; exact nul_path e
  | _ => refine quotes_nil ?_; unfold Error.display; no_nul

/-! ### Which errors a library call can give -/

theorem run_lift_err {ε α β} {x : Res ε α} {f : α → RM ε β} {r : Rng} {e : ε} (h : ((RM.lift x >>= f).run r).1 = .err e) :
    x = .err e ∨ ∃ a, x = .ok a ∧ ((f a).run r).1 = .err e := by
  rw [RM.run_bind, RM.run_lift] at h
  cases x with
  | ok a => exact .inr ⟨a, rfl, h⟩
  | err e' =>
    have h : Res.err e' = Res.err e := h
    cases h; exact .inl rfl
  | panic => cases h

theorem encrypt_no_err {ε} {P : Hashes} {A : Aead} {d : Bytes} {pw : Str} {r : Rng} {e : ε} : ((Crypt.encrypt P A d pw).run r).1 ≠ .err e := by
  intro h
  unfold Crypt.encrypt at h
  rw [RM.run_bind, RM.run_fill] at h
  rcases h1 : r.fill Crypt.saltSize with ⟨_ | b, r1⟩
  · rw [h1] at h; cases h
  · rw [h1] at h
    dsimp only at h
    rw [RM.run_bind, RM.run_fill] at h
    rcases h2 : r1.fill Crypt.nonceSize with ⟨_ | b', r2⟩
    · rw [h2] at h; cases h
    · rw [h2] at h; cases h

theorem mem_of_mem_split {sep c : Char} {s w : Str} (hw : w ∈ Bip39.split sep s) (hc : c ∈ w) : c ∈ s := by
  induction s generalizing w with
  | nil => simp [Bip39.split] at hw; subst hw; exact hc
  | cons a s ih =>
    unfold Bip39.split at hw
    by_cases ha : a = sep
    · rw [if_pos ha] at hw
      rcases List.mem_cons.mp hw with rfl | hw
      · cases hc
      · exact List.mem_cons_of_mem _ (ih hw hc)
    · rw [if_neg ha] at hw
      cases hs : Bip39.split sep s with
      | nil =>
        rw [hs] at hw
        obtain rfl : w = [a] := by simpa using hw
        exact List.mem_cons.mpr (.inl (by simpa using hc))
      | cons h t =>
        rw [hs] at hw
        rcases List.mem_cons.mp hw with rfl | hw
        · rcases List.mem_cons.mp hc with rfl | hc
          · exact List.mem_cons_self
          · exact List.mem_cons_of_mem _ (ih (by rw [hs]; exact List.mem_cons_self) hc)
        · exact List.mem_cons_of_mem _ (ih (by rw [hs]; exact List.mem_cons_of_mem _ hw) hc)

theorem mem_of_mem_trim {c : Char} {s : Str} (h : c ∈ Str.trim s) : c ∈ s := by
  unfold Str.trim at h
  rw [List.mem_reverse] at h
  have h := (List.dropWhile_suffix _).subset h
  rw [List.mem_reverse] at h
  exact (List.dropWhile_suffix _).subset h

theorem fromWords_err {d : Bip39.Dict} {ws : List Str} {w : Str}
    (h : Bip39.fromWords d ws = .err (.languageError (.wordNotFound w))) : w ∈ ws := by
  induction ws with
  | nil => cases h
  | cons a ws ih =>
    rw [Bip39.fromWords, Res.bind_eq_err] at h
    rcases h with h | ⟨i, -, h⟩
    · unfold Bip39.indexFromWord at h
      rw [Res.mapErr_eq_err] at h
      obtain ⟨e', h, he⟩ := h
      cases he
      unfold Bip39.Dict.lookupMnemonic at h
      split at h
      · cases h; exact List.mem_cons_self
      · split at h <;> cases h
    · rw [Res.bind_eq_err] at h
      rcases h with h | ⟨is, -, h⟩
      · exact List.mem_cons_of_mem _ (ih h)
      · cases h

theorem ofBip39_quotes {e : Bip39.Error} {q : Str} (h : q ∈ mnemonicQuotes (Mnemonic.Error.ofBip39 e)) :
    e = .languageError (.wordNotFound q) := by
  cases e with
  | languageError l =>
    cases l with
    | wordNotFound w =>
      have : q = w := by simpa [Mnemonic.Error.ofBip39, mnemonicQuotes] using h
      rw [this]
  | _ => simp [Mnemonic.Error.ofBip39, mnemonicQuotes] at h

theorem fromMnemonics_no_word {v : List UInt16} {w : Str} : Bip39.Mnemonics.fromMnemonics v ≠ .err (.languageError (.wordNotFound w)) := by
  intro h
  rw [Bip39.Mnemonics.fromMnemonics, Res.bind_eq_err] at h
  rcases h with h | ⟨t, -, h⟩
  · unfold Bip39.MType.fromWordCount at h
    split at h <;> cases h
  · cases h

theorem seedFromMnemonic_quotes {P : Hashes} {m u : Str} {size : Nat} {l : Mnemonic.Language} {e : Mnemonic.Error} {q : Str}
    (h : Mnemonic.seedFromMnemonic P m u size l = .err e) (hq : q ∈ mnemonicQuotes e) (h0 : '\x00' ∈ q) : '\x00' ∈ m := by
  rw [Mnemonic.seedFromMnemonic, Res.bind_eq_err] at h
  rcases h with h | ⟨mn, -, h⟩
  · rw [Res.mapErr_eq_err] at h
    obtain ⟨e', h, rfl⟩ := h
    obtain rfl := ofBip39_quotes hq
    rw [Bip39.Mnemonics.fromString, Res.bind_eq_err] at h
    rcases h with h | ⟨v, -, h⟩
    · exact mem_of_mem_split (fromWords_err h) h0
    · exact absurd h fromMnemonics_no_word
  · exfalso
    rw [Res.bind_eq_err] at h
    rcases h with h | ⟨t, -, h⟩
    · cases hg : mn.getType <;> rw [hg] at h <;> cases h
    · dsimp only at h
      split at h
      · cases h; cases hq
      · split at h
        · cases h; cases hq
        · rw [Res.bind_eq_err] at h
          rcases h with h | ⟨tx, -, h⟩
          · cases hg : mn.toText l.toDict <;> rw [hg] at h <;> cases h
          · cases h

theorem seedFromData_quotes {E : Env} {M : Manager} {s : Option Bytes} {m : Option Str} {l} {e : Error} {T : Texts} {q : Str}
    (h : M.seedFromData E s m l = .err e) (hq : q ∈ quotes T e) (h0 : '\x00' ∈ q) : s = none ∧ ∃ t lang, m = some t ∧ l = some lang ∧ '\x00' ∈ t := by
  cases s with
  | some s =>
    simp only [Manager.seedFromData] at h
    split at h
    · cases h
    · cases h; cases hq
  | none =>
    simp only [Manager.seedFromData] at h
    cases m with
    | none => cases h; cases hq
    | some m =>
      cases l with
      | none => cases h; cases hq
      | some l =>
        simp only [Res.okOr, Res.bind_ok, Res.mapErr_eq_err] at h
        obtain ⟨e', h, rfl⟩ := h
        exact ⟨rfl, m, l, rfl, rfl, seedFromMnemonic_quotes h hq h0⟩

theorem load_quotes {E : Env} {b : Bytes} {pw : Str} {e : Error} {T : Texts} {q : Str}
    (h : Manager.keychainDataFromBytes E b pw = .err e) (hq : q ∈ quotes T e) : q = T.serde := by
  rw [Manager.keychainDataFromBytes, Res.bind_eq_err] at h
  rcases h with h | ⟨d, -, h⟩
  · rw [Res.mapErr_eq_err] at h
    obtain ⟨e', -, rfl⟩ := h
    cases e' <;> cases hq
  · cases hx : (Data.Versioned.fromBytes E.D d).bind (Data.Versioned.getData E.D) with
    | none => rw [hx] at h; cases h; simpa [quotes] using hq
    | some w => rw [hx] at h; cases h

theorem factory_mem {M : Manager} {e : Network × Factory} (h : e ∈ M.factories.entries) : M.getKeyFactory e.1 = some e.2 := by
  unfold Manager.getKeyFactory
  exact (M.factories.get_eq_some e.1 e.2).mpr h

theorem new_quotes {E : Env} {itF itK} {M : Manager} {s : Option Bytes} {pw : Str} {m : Option Str} {l} {r : Rng} {e : Error} {T : Texts}
    {q : Str} (hM : ∀ n f, M.getKeyFactory n = some f → QuietFactory f)
    (h : ((M.newKeychainData E itF itK s pw m l).run r).1 = .err e) (hq : q ∈ quotes T e) (h0 : '\x00' ∈ q) :
    ∃ t, m = some t ∧ '\x00' ∈ t := by
  rw [Manager.newKeychainData] at h
  rcases run_lift_err h with h | ⟨seed, -, h⟩
  · obtain ⟨-, t, -, ht, -, h⟩ := seedFromData_quotes h hq h0
    exact ⟨t, ht, h⟩
  · rcases run_lift_err h with h | ⟨keys, -, h⟩
    · exfalso
      obtain ⟨f, hf, h⟩ := Res.mapM_eq_err h
      obtain ⟨en, hen, rfl⟩ := List.mem_map.mp hf
      rw [Res.mapErr_eq_err] at h
      obtain ⟨e', h5, rfl⟩ := h
      rw [Res.map_eq_err] at h5
      have hqf := hM _ _ (factory_mem ((itF.perm _).subset hen))
      have hq : q ∈ keyQuotes T e' := hq
      rw [hqf.2.1 _ _ h5 T] at hq
      cases hq
    · exact absurd h encrypt_no_err

theorem open_quotes {E : Env} {it} {M : Manager} {b : Bytes} {pw : Str} {e : Error} {T : Texts} {q : Str}
    (hM : ∀ n f, M.getKeyFactory n = some f → QuietFactory f)
    (h : M.keychainFromData E it b pw = .err e) (hq : q ∈ quotes T e) : q = T.serde := by
  rw [Manager.keychainFromData, Res.bind_eq_err] at h
  rcases h with h | ⟨w, -, h⟩
  · exact load_quotes h hq
  · exfalso
    rw [Res.bind_eq_err] at h
    rcases h with h | ⟨ks, -, h⟩
    · obtain ⟨y, hy, h⟩ := Res.mapM_eq_err h
      obtain ⟨en, hen, hy⟩ := List.mem_filterMap.mp hy
      rw [Option.map_eq_some_iff] at hy
      obtain ⟨f, hf, rfl⟩ := hy
      rw [Res.mapErr_eq_err] at h
      obtain ⟨e', h5, rfl⟩ := h
      have hq : q ∈ keyQuotes T e' := hq
      rw [(hM _ _ hf).1 _ _ h5 T] at hq
      cases hq
    · cases h

theorem open_quiet {E : Env} {it} {M : Manager} {b : Bytes} {pw : Str} {kc : Keychain}
    (hM : ∀ n f, M.getKeyFactory n = some f → QuietFactory f)
    (h : M.keychainFromData E it b pw = .ok kc) : ∀ n k, kc.keys.get n = some k → QuietKey k := by
  rw [Manager.keychainFromData, Res.bind_eq_ok] at h
  obtain ⟨w, -, h⟩ := h
  rw [Res.bind_eq_ok] at h
  obtain ⟨ks, h, hk⟩ := h
  cases hk
  intro n k hk
  rw [Keychain.new, NMap.get_ofList] at hk
  have := NMap.mem_of_lastOf hk
  rw [List.mem_map] at this
  obtain ⟨k', hk', e⟩ := this
  cases e
  obtain ⟨y, hy, hy2⟩ := (Res.mapM_eq_ok h).2.2 k hk'
  obtain ⟨en, hen, hy⟩ := List.mem_filterMap.mp hy
  rw [Option.map_eq_some_iff] at hy
  obtain ⟨f, hf, rfl⟩ := hy
  rw [Res.mapErr_eq_ok] at hy2
  exact (hM _ _ hf).2.2 _ _ hy2

theorem add_quotes {E : Env} {it} {M : Manager} {b : Bytes} {pw : Str} {n : Network} {r : Rng} {e : Error} {T : Texts} {q : Str}
    (hM : ∀ n f, M.getKeyFactory n = some f → QuietFactory f)
    (h : ((M.addNetwork E it b pw n).run r).1 = .err e) (hq : q ∈ quotes T e) (h0 : '\x00' ∈ q) :
    q = T.serde ∨ ∃ t l, Manager.retrieveMnemonic E b pw = .ok (t, l) ∧ '\x00' ∈ t := by
  rw [Manager.addNetwork] at h
  rcases run_lift_err h with h | ⟨f, hf, h⟩
  · exfalso
    cases hg : M.factories.get n <;> rw [hg] at h <;> cases h
    cases hq
  · rcases run_lift_err h with h | ⟨w, hw, h⟩
    · exact .inl (load_quotes h hq)
    · split at h
      · cases h; cases hq
      · rcases run_lift_err h with h | ⟨seed, hs, h⟩
        · obtain ⟨-, t, l, ht, hl, h⟩ := seedFromData_quotes h hq h0
          refine .inr ⟨t, l, ?_, h⟩
          rw [Manager.retrieveMnemonic, hw]
          simp [ht, hl]
        · rcases run_lift_err h with h | ⟨kd, -, h⟩
          · exfalso
            rw [Res.mapErr_eq_err] at h
            obtain ⟨e', h5, rfl⟩ := h
            have hq : q ∈ keyQuotes T e' := hq
            rw [(hM _ _ (Res.okOr_eq_ok.mp hf)).2.1 _ _ h5 T] at hq
            cases hq
          · exact absurd h encrypt_no_err

theorem key_call_quotes {α} {kc : Keychain} {n : Network} {f : KeyObj → Res Key.Error α} {e : Error} {T : Texts} {q : Str}
    (hk : ∀ k, kc.keys.get n = some k → ∀ e, f k = .err e → keyQuotes T e = [])
    (h : (kc.pk n >>= fun k => (f k).mapErr (Error.keyError n)) = .err e) (hq : q ∈ quotes T e) : False := by
  rw [Res.bind_eq_err] at h
  rcases h with h | ⟨k, h1, h⟩
  · unfold Keychain.pk at h
    cases hg : kc.keys.get n <;> rw [hg] at h <;> cases h
    cases hq
  · rw [Res.mapErr_eq_err] at h
    obtain ⟨e', h, rfl⟩ := h
    have hq : q ∈ keyQuotes T e' := hq
    rw [hk k (Res.okOr_eq_ok.mp h1) _ h] at hq
    cases hq

theorem utf8_ofUtf8 {b : Bytes} {t : Str} (h : Json.ofUtf8 b = some t) : Str.utf8 t = b := by
  unfold Json.ofUtf8 at h
  rw [Option.map_eq_some_iff] at h
  obtain ⟨a, h, rfl⟩ := h
  have h2 : b.toByteArray.utf8Decode?.isSome := by rw [h]; rfl
  have h3 := ByteArray.utf8Encode_get_utf8Decode? (b := b.toByteArray) (h := h2)
  have h4 : b.toByteArray.utf8Decode?.get h2 = a := by simp [h]
  rw [h4] at h3
  have h5 : (Str.utf8 a.toList).toByteArray = b.toByteArray := h3
  have h6 := congrArg (fun x : ByteArray => x.data.toList) h5
  simpa using h6

theorem cText_nul {s : CText} {t : Str} (h : Json.ofUtf8 s.val = some t) : '\x00' ∉ t := by
  rw [← nul_utf8, utf8_ofUtf8 h]
  exact s.property


theorem path_err_quotes {p : Profile} {i : Nat} {s : Str} {e : KeyPath.Error} (h : KeyPath.parseInt p i s = .err e) : pathQuotes e = [] := by
  have soft : ∀ {s : Str} {e : KeyPath.Error}, KeyPath.softInt i s = .err e → pathQuotes e = [] := by
    intro s e h
    unfold KeyPath.softInt at h
    split at h
    · cases h; rfl
    · rw [Res.mapErr_eq_err] at h
      obtain ⟨e', -, rfl⟩ := h; rfl
  unfold KeyPath.parseInt at h
  split at h
  · cases h; rfl
  · rw [Res.bind_eq_err] at h
    rcases h with h | ⟨⟨_, last⟩, -, h⟩
    · cases hx : Str.splitAtByte s (Str.len s - 1) <;> rw [hx] at h <;> cases h
    · dsimp only at h
      split at h
      · unfold KeyPath.hardInt at h
        split at h
        · cases h; rfl
        · rw [Res.bind_eq_err] at h
          rcases h with h | ⟨⟨front, _⟩, -, h⟩
          · cases hx : Str.splitAtByte s (Str.len s - 1) <;> rw [hx] at h <;> cases h
          · dsimp only at h
            rw [Res.bind_eq_err] at h
            rcases h with h | ⟨v, -, h⟩
            · exact soft h
            · cases hx : KeyPath.addU32 p v KeyPath.softUpperBound <;> rw [hx] at h <;> cases h
      · exact soft h

theorem from_quotes {p : Profile} {s : Str} {e : KeyPath.Error} {q : Str} (h : KeyPath.Path.from p s = .err e) (hq : q ∈ pathQuotes e)
    (h0 : '\x00' ∈ q) : '\x00' ∈ s := by
  unfold KeyPath.Path.from at h
  dsimp only at h
  split at h
  · cases h; cases hq
  split at h
  · cases h
    obtain rfl : q = _ := by simpa [pathQuotes] using hq
    cases hs : Bip39.split '/' s with
    | nil => rw [hs] at h0; cases h0
    | cons a l =>
      rw [hs] at h0
      exact mem_of_mem_split (by rw [hs]; exact List.mem_cons_self) (mem_of_mem_trim h0)
  · exfalso
    have key : ∀ {i s}, KeyPath.parseInt p i s = .err e → False := fun h => by rw [path_err_quotes h] at hq; cases hq
    rw [Res.bind_eq_err] at h
    rcases h with h | ⟨_, -, h⟩
    · exact key h
    rw [Res.bind_eq_err] at h
    rcases h with h | ⟨_, -, h⟩
    · exact key h
    rw [Res.bind_eq_err] at h
    rcases h with h | ⟨_, -, h⟩
    · exact key h
    rw [Res.bind_eq_err] at h
    rcases h with h | ⟨_, -, h⟩
    · exact key h
    rw [Res.bind_eq_err] at h
    rcases h with h | ⟨_, -, h⟩
    · exact key h
    cases h

theorem addU32_no_err {p : Profile} {a b : UInt32} {ε} {e : ε} : Res.ofPanic (KeyPath.addU32 p a b) ≠ .err e := by
  cases hx : KeyPath.addU32 p a b <;> nofun

theorem bitcoin_quotes {u : UInt32} {p : Profile} {t : Bool} {a c d : UInt32} {e : KeyPath.Error} (h : Bitcoin.pathWith u p t a c d = .err e) :
    pathQuotes e = [] := by
  rw [Bitcoin.pathWith, Res.bind_eq_err] at h
  rcases h with h | ⟨_, -, h⟩
  · unfold Bitcoin.isValid at h
    split at h
    · cases h; rfl
    split at h
    · cases h; rfl
    split at h <;> cases h
    rfl
  · rw [Res.bind_eq_err] at h
    rcases h with h | ⟨_, -, h⟩
    · exact absurd h addU32_no_err
    · cases h

theorem ethereum_quotes {p : Profile} {a : UInt32} {e : KeyPath.Error} (h : Ethereum.path p a = .err e) : pathQuotes e = [] := by
  unfold Ethereum.path at h
  split at h
  · cases h; rfl
  · rw [Res.bind_eq_err] at h
    rcases h with h | ⟨_, -, h⟩
    · exact absurd h addU32_no_err
    · cases h

theorem metamask_quotes {a : UInt32} {e : KeyPath.Error} (h : Ethereum.pathMetamask a = .err e) : pathQuotes e = [] := by
  unfold Ethereum.pathMetamask at h
  split at h <;> cases h
  rfl

theorem cardano_quotes {p : Profile} {a c d : UInt32} {e : KeyPath.Error} (h : Cardano.path p a c d = .err e) : pathQuotes e = [] := by
  unfold Cardano.path at h
  split at h
  · cases h; rfl
  split at h
  · cases h; rfl
  split at h
  · cases h; rfl
  · rw [Res.bind_eq_err] at h
    rcases h with h | ⟨_, -, h⟩
    · exact absurd h addU32_no_err
    · cases h

theorem decode_err {α} {s : CText} {f : Str → RM Error α} {r : Rng} {e : Error} (h : ((decode s f).run r).1 = .err e) :
    ∃ t, Json.ofUtf8 s.val = some t ∧ '\x00' ∉ t ∧ ((f t).run r).1 = .err e := by
  rw [run_decode] at h
  cases hs : Json.ofUtf8 s.val with
  | none => rw [hs] at h; cases h
  | some t => rw [hs] at h; exact ⟨t, rfl, cText_nul hs, h⟩

theorem pathRes_err {x : Res KeyPath.Error KeyPath.Path} {r : Rng} {e : Error} (h : ((pathRes x).run r).1 = .err e) :
    ∃ e', x = .err e' ∧ e = .keyPathError e' := by
  have h : x.mapErr Error.keyPathError = .err e := h
  rw [Res.mapErr_eq_err] at h
  obtain ⟨e', h1, h2⟩ := h
  exact ⟨e', h1, h2.symm⟩

theorem onM_err {α} {f : Manager → RM Error α} {t : Target} {r : Rng} {e : Error} (h : ((onM f t).run r).1 = .err e) :
    ∃ m r', t = .manager m r' ∧ ((f m).run r).1 = .err e := by
  cases t with
  | manager m r' => exact ⟨m, r', rfl, h⟩
  | _ => cases h

theorem onK_err {α} {f : Keychain → Res Error α} {t : Target} {r : Rng} {e : Error} (h : ((onK f t).run r).1 = .err e) :
    ∃ k, t = .keychain k ∧ f k = .err e := by
  cases t with
  | keychain k => exact ⟨k, rfl, h⟩
  | _ => cases h

theorem withFactory_quotes {umax : Nat} {fs : List Factory} {e : Error} {T : Texts} (h : Manager.new umax fs = .err e) : quotes T e = [] := by
  obtain ⟨a, b, rfl⟩ : ∃ a b, e = .cantCalculateSeedSize a b := by
    unfold Manager.new Manager.withFactoryObjs at h
    rw [Res.bind_eq_err] at h
    rcases h with h | ⟨s, -, h⟩
    · unfold Manager.calculateSeedSize at h
      dsimp only at h
      split at h
      · cases h; exact ⟨_, _, rfl⟩
      split at h
      · cases h; exact ⟨_, _, rfl⟩
      · cases h
    · cases h
  rfl

theorem changePassword_quotes {E : Env} {b : Bytes} {o n : Str} {r : Rng} {e : Error} {T : Texts}
    (h : ((Manager.changePassword E b o n).run r).1 = .err e) : quotes T e = [] := by
  unfold Manager.changePassword at h
  rcases run_lift_err h with h | ⟨d, -, h⟩
  · rw [Res.mapErr_eq_err] at h
    obtain ⟨e', -, rfl⟩ := h
    cases e' <;> rfl
  · exact absurd h encrypt_no_err

theorem run_bind_err {ε α β} {x : RM ε α} {f : α → RM ε β} {r : Rng} {e : ε} (h : ((x >>= f).run r).1 = .err e) :
    (x.run r).1 = .err e ∨ ∃ a r', x.run r = (.ok a, r') ∧ ((f a).run r').1 = .err e := by
  rw [RM.run_bind] at h
  rcases hx : x.run r with ⟨_ | _ | _, r'⟩
  · rw [hx] at h; exact .inr ⟨_, _, rfl, h⟩
  · rw [hx] at h; have h : (Res.err _ : Res ε β) = .err e := h; cases h; exact .inl rfl
  · rw [hx] at h; cases h

theorem entropySize_quotes {n : Nat} {e : Mnemonic.Error} (h : (Bip39.MType.fromEntropySize n).mapErr Mnemonic.Error.ofBip39 = .err e) :
    mnemonicQuotes e = [] := by
  rw [Res.mapErr_eq_err] at h
  obtain ⟨e', h, rfl⟩ := h
  unfold Bip39.MType.fromEntropySize at h
  split at h <;> cases h
  rfl

theorem generate_quotes {E : Env} {M : Manager} {l : Option Mnemonic.Language} {r : Rng} {e : Error} {T : Texts}
    (h : ((M.generateMnemonic E l).run r).1 = .err e) : quotes T e = [] := by
  unfold Manager.generateMnemonic at h
  rw [RM.run_mapErr] at h
  dsimp only at h
  rw [Res.mapErr_eq_err] at h
  obtain ⟨e', h, rfl⟩ := h
  show mnemonicQuotes e' = []
  rcases run_bind_err h with h | ⟨ent, r', -, h⟩
  · unfold Mnemonic.generateEntropy at h
    rcases run_lift_err h with h | ⟨t, -, h⟩
    · exact entropySize_quotes h
    · rcases run_bind_err h with h | ⟨b, r', -, h⟩
      · rw [RM.run_fill] at h
        rcases hx : r.fill (t.toKeySize / 8) with ⟨_ | _, _⟩ <;> rw [hx] at h <;> cases h
      · rcases run_lift_err h with h | ⟨e, -, h⟩
        · cases hx : Bip39.Entropy.generate t b <;> rw [hx] at h <;> cases h
        · cases h
  · have h : Mnemonic.mnemonicFromEntropy E.H ent (l.getD .english) = .err e' := h
    unfold Mnemonic.mnemonicFromEntropy at h
    rw [Res.bind_eq_err] at h
    rcases h with h | ⟨en, -, h⟩
    · rw [Res.mapErr_eq_err] at h
      obtain ⟨e2, h5, rfl⟩ := h
      unfold Bip39.Entropy.fromSlice at h5
      rw [Res.bind_eq_err] at h5
      rcases h5 with h5 | ⟨t, -, h5⟩
      · exact entropySize_quotes (n := ent.length * 8) (by rw [h5]; rfl)
      · cases hx : Bip39.Entropy.new t ent <;> rw [hx] at h5 <;> cases h5
    · rw [Res.bind_eq_err] at h
      rcases h with h | ⟨m, -, h⟩
      · cases hx : en.toMnemonics E.H <;> rw [hx] at h <;> cases h
      · cases hx : m.toText (l.getD .english).toDict <;> rw [hx] at h <;> cases h

/-- A NUL quoted by the error of a library call comes from the `serde_json` text or from a text inside encrypted data. -/
theorem lib_nul {W : Build} {x : Ctx} {t : Target} {k : Kind} {f : Fn k} {r : Rng} {e : Error} {T : Texts} {q : Str} (ht : t.Quiet)
    (h : ((f.lib W x t).run r).1 = .err e) (hq : q ∈ quotes T e) (h0 : '\x00' ∈ q) : q = T.serde ∨ ∃ m ∈ f.foreign W, '\x00' ∈ m := by
  cases f with
  | keypathFromString s =>
    obtain ⟨t, -, ht, h⟩ := decode_err h
    obtain ⟨e', h5, rfl⟩ := pathRes_err h
    exact absurd (from_quotes h5 hq h0) ht
  | bitcoinBip44 t a c d =>
    obtain ⟨e', h5, rfl⟩ := pathRes_err h
    have hq : q ∈ pathQuotes e' := hq
    rw [bitcoin_quotes h5] at hq; cases hq
  | bitcoinBip49 t a c d =>
    obtain ⟨e', h5, rfl⟩ := pathRes_err h
    have hq : q ∈ pathQuotes e' := hq
    rw [bitcoin_quotes h5] at hq; cases hq
  | bitcoinBip84 t a c d =>
    obtain ⟨e', h5, rfl⟩ := pathRes_err h
    have hq : q ∈ pathQuotes e' := hq
    rw [bitcoin_quotes h5] at hq; cases hq
  | ethereumNew a =>
    obtain ⟨e', h5, rfl⟩ := pathRes_err h
    have hq : q ∈ pathQuotes e' := hq
    rw [ethereum_quotes h5] at hq; cases hq
  | ethereumMetamask a =>
    obtain ⟨e', h5, rfl⟩ := pathRes_err h
    have hq : q ∈ pathQuotes e' := hq
    rw [metamask_quotes h5] at hq; cases hq
  | cardanoNew a c d =>
    obtain ⟨e', h5, rfl⟩ := pathRes_err h
    have hq : q ∈ pathQuotes e' := hq
    rw [cardano_quotes h5] at hq; cases hq
  | networks => obtain ⟨kc, rfl, h⟩ := onK_err h; cases h
  | pubKey n p => obtain ⟨kc, rfl, h⟩ := onK_err h; exact (key_call_quotes (fun k hk e he => (ht _ k hk).1 _ e he T) h hq).elim
  | sign n d p => obtain ⟨kc, rfl, h⟩ := onK_err h; exact (key_call_quotes (fun k hk e he => (ht _ k hk).2.1 _ _ e he T) h hq).elim
  | verify n d s p => obtain ⟨kc, rfl, h⟩ := onK_err h; exact (key_call_quotes (fun k hk e he => (ht _ k hk).2.2 _ _ _ e he T) h hq).elim
  | managerNew r =>
    have h : (Manager.new W.umax W.all).map (fun m => (m, r)) = .err e := h
    rw [Res.map_eq_err] at h
    rw [withFactory_quotes h] at hq; cases hq
  | hasNetwork n => obtain ⟨m, r', rfl, h⟩ := onM_err h; cases h
  | generate l =>
    obtain ⟨m, r', rfl, h⟩ := onM_err h
    rw [generate_quotes h] at hq; cases hq
  | fromSeed s pw =>
    obtain ⟨m, r', rfl, h⟩ := onM_err h
    obtain ⟨t, -, -, h⟩ := decode_err h
    obtain ⟨t, h, -⟩ := new_quotes ht h hq h0
    cases h
  | fromMnemonic s pw l =>
    obtain ⟨m, r', rfl, h⟩ := onM_err h
    obtain ⟨t, -, hn, h⟩ := decode_err h
    obtain ⟨t', -, -, h⟩ := decode_err h
    obtain ⟨t, h, h'⟩ := new_quotes ht h hq h0
    cases h
    exact absurd h' hn
  | «open» d pw =>
    obtain ⟨m, r', rfl, h⟩ := onM_err h
    obtain ⟨t, -, -, h⟩ := decode_err h
    exact .inl (open_quotes ht h hq)
  | add d pw n =>
    obtain ⟨m, r', rfl, h⟩ := onM_err h
    obtain ⟨t, hpw, -, h⟩ := decode_err h
    rcases add_quotes ht h hq h0 with h | ⟨t', l, h1, h2⟩
    · exact .inl h
    · refine .inr ⟨t', ?_, h2⟩
      simp only [Fn.foreign, stored, hpw, h1]
      exact List.mem_singleton.mpr rfl
  | change d o n =>
    obtain ⟨m, r', rfl, h⟩ := onM_err h
    obtain ⟨t, -, -, h⟩ := decode_err h
    obtain ⟨t', -, -, h⟩ := decode_err h
    rw [changePassword_quotes h] at hq; cases hq
  | keysData d pw =>
    obtain ⟨m, r', rfl, h⟩ := onM_err h
    obtain ⟨t, -, -, h⟩ := decode_err h
    have h : Manager.getKeysData W.E x.keys d t = .err e := h
    exact .inl (load_quotes (Res.map_eq_err.mp h) hq)
  | retrieve d pw =>
    obtain ⟨m, r', rfl, h⟩ := onM_err h
    obtain ⟨t, -, -, h⟩ := decode_err h
    have h : Manager.retrieveMnemonic W.E d t = .err e := h
    unfold Manager.retrieveMnemonic at h
    rw [Res.bind_eq_err] at h
    rcases h with h | ⟨w, -, h⟩
    · exact .inl (load_quotes h hq)
    · exfalso
      cases hm : w.mnemonic with
      | none => rw [hm] at h; cases h; cases hq
      | some m =>
        rw [hm] at h
        cases hl : w.dictionary with
        | none => rw [hl] at h; cases h; cases hq
        | some l => rw [hl] at h; cases h

/-! ### The built-in networks quote nothing -/

theorem ofPanic_no_err {ε α} {x : Option α} {e : ε} : Res.ofPanic x ≠ .err e := by cases x <;> nofun

theorem seed_quotes {s : Bytes} {e : Key.Error} {T : Texts} (h : seedOrError s = .err e) : keyQuotes T e = [] := by
  unfold seedOrError at h
  rw [Res.mapErr_eq_err] at h
  obtain ⟨e', h, rfl⟩ := h
  unfold Bip39.Seed.fromSlice at h
  split at h <;> cases h
  rfl

theorem ofSecp_quotes {e : Secp.KeyError} {T : Texts} : keyQuotes T (Key.Error.ofSecp e) = [] := by
  cases e <;> rfl

theorem ofSecpSign_quotes {e : Secp.KeyError} {T : Texts} : keyQuotes T (Key.Error.ofSecpSign e) = [] := by
  cases e <;> rfl

theorem mapSecp_quotes {α} {x : Res Secp.KeyError α} {e : Key.Error} {T : Texts} (h : x.mapErr Key.Error.ofSecp = .err e) : keyQuotes T e = [] := by
  rw [Res.mapErr_eq_err] at h
  obtain ⟨e', -, rfl⟩ := h
  exact ofSecp_quotes

theorem mapSecpSign_quotes {α} {x : Res Secp.KeyError α} {e : Key.Error} {T : Texts} (h : x.mapErr Key.Error.ofSecpSign = .err e) :
    keyQuotes T e = [] := by
  rw [Res.mapErr_eq_err] at h
  obtain ⟨e', -, rfl⟩ := h
  exact ofSecpSign_quotes

theorem bitcoin_key {H : Hashes} {C : Secp.Curve} {x : Secp.XPrv} : QuietKey (Bitcoin.keyObj H C x) := by
  have der : ∀ {p e}, Bitcoin.derivePrivate H C x p = .err e → ∀ T, keyQuotes T e = [] := by
    intro p e h T
    unfold Bitcoin.derivePrivate at h
    iterate 4
      split at h
      · cases h; rfl
    exact mapSecp_quotes h
  refine ⟨fun p e h => der (Res.map_eq_err.mp h), fun m p e h T => ?_, fun m s p e h T => ?_⟩
  · have h : (Bitcoin.derivePrivate H C x p >>= fun pk => (pk.sign H C m).mapErr Key.Error.ofSecpSign) = .err e := h
    rw [Res.bind_eq_err] at h
    rcases h with h | ⟨_, -, h⟩
    · exact der h T
    · exact mapSecpSign_quotes h
  · have h : (Bitcoin.derivePrivate H C x p >>= fun pk => (Secp.pubVerify H C (pk.public C) m s).mapErr Key.Error.ofSecp) = .err e := h
    rw [Res.bind_eq_err] at h
    rcases h with h | ⟨_, -, h⟩
    · exact der h T
    · exact mapSecp_quotes h

theorem ethereum_key {H : Hashes} {C : Secp.Curve} {x : Secp.XPrv} : QuietKey (Ethereum.keyObj H C x) := by
  have der : ∀ {p e}, Ethereum.derivePrivate H C x p = .err e → ∀ T, keyQuotes T e = [] := by
    intro p e h T
    unfold Ethereum.derivePrivate at h
    iterate 5
      split at h
      · cases h; rfl
    exact mapSecp_quotes h
  refine ⟨fun p e h => der (Res.map_eq_err.mp h), fun m p e h T => ?_, fun m s p e h T => ?_⟩
  · have h : (Ethereum.derivePrivate H C x p >>= fun pk => (pk.sign H C m).mapErr Key.Error.ofSecpSign) = .err e := h
    rw [Res.bind_eq_err] at h
    rcases h with h | ⟨_, -, h⟩
    · exact der h T
    · exact mapSecpSign_quotes h
  · have h : (Ethereum.derivePrivate H C x p >>= fun pk => (Secp.pubVerify H C (pk.public C) m s).mapErr Key.Error.ofSecp) = .err e := h
    rw [Res.bind_eq_err] at h
    rcases h with h | ⟨_, -, h⟩
    · exact der h T
    · exact mapSecp_quotes h

theorem cardano_key {E : Cardano.Ed} {x : Cardano.XPrv} : QuietKey (Cardano.keyObj E x) := by
  have der : ∀ {p e}, Cardano.derivePrivate E x p = .err e → ∀ T, keyQuotes T e = [] := by
    intro p e h T
    unfold Cardano.derivePrivate at h
    iterate 5
      split at h
      · cases h; rfl
    cases h
  refine ⟨fun p e h => der (Res.map_eq_err.mp h), fun m p e h => der (Res.map_eq_err.mp h), fun m s p e h T => ?_⟩
  have h : (if s.length < Cardano.signatureSize then .err (.invalidSignatureSize s.length Cardano.signatureSize)
    else do
      let s ← Res.ofPanic (Bytes.copyFrom Cardano.signatureSize s)
      (Cardano.derivePrivate E x p).map fun pk => E.verify pk m s.val : Res Key.Error Bool) = .err e := h
  split at h
  · cases h; rfl
  · rw [Res.bind_eq_err] at h
    rcases h with h | ⟨_, -, h⟩
    · exact absurd h ofPanic_no_err
    · exact der (Res.map_eq_err.mp h) T

theorem map_key {α} {x : Res Key.Error α} {g : α → KeyObj} {k : KeyObj} (h : x.map g = .ok k) : ∃ a, k = g a := by
  rw [Res.map_eq_ok] at h
  obtain ⟨a, -, rfl⟩ := h
  exact ⟨a, rfl⟩

theorem bitcoin_factory (H : Hashes) (C : Secp.Curve) : QuietFactory (Bitcoin.factory H C) := by
  refine ⟨fun d e h T => ?_, fun d e h T => ?_, fun d k h => ?_⟩
  · exact mapSecp_quotes (Res.map_eq_err.mp h)
  · have h : (seedOrError d >>= fun s => Bitcoin.dataFromSeed H s) = .err e := h
    rw [Res.bind_eq_err] at h
    rcases h with h | ⟨s, -, h⟩
    · exact seed_quotes h
    · unfold Bitcoin.dataFromSeed at h
      rw [Res.bind_eq_err] at h
      rcases h with h | ⟨_, -, h⟩
      · exact mapSecp_quotes h
      · exact absurd h ofPanic_no_err
  · obtain ⟨a, rfl⟩ := map_key h; exact bitcoin_key

theorem ethereum_factory (H : Hashes) (C : Secp.Curve) : QuietFactory (Ethereum.factory H C) := by
  refine ⟨fun d e h T => ?_, fun d e h T => ?_, fun d k h => ?_⟩
  · exact mapSecp_quotes (Res.map_eq_err.mp h)
  · have h : (seedOrError d >>= fun s => Ethereum.dataFromSeed H s) = .err e := h
    rw [Res.bind_eq_err] at h
    rcases h with h | ⟨s, -, h⟩
    · exact seed_quotes h
    · unfold Ethereum.dataFromSeed at h
      rw [Res.bind_eq_err] at h
      rcases h with h | ⟨_, -, h⟩
      · exact mapSecp_quotes h
      · exact absurd h ofPanic_no_err
  · obtain ⟨a, rfl⟩ := map_key h; exact ethereum_key

theorem cardano_factory (H : Hashes) (E : Cardano.Ed) : QuietFactory (Cardano.factory H E) := by
  have ver : ∀ {b e}, (Cardano.fromBytesVerified b).mapErr (fun e => Key.Error.invalidKeyData (.cardano e)) = .err e →
      ∀ T, keyQuotes T e = [] := by
    intro b e h T
    rw [Res.mapErr_eq_err] at h
    obtain ⟨e', -, rfl⟩ := h
    rfl
  refine ⟨fun d e h T => ?_, fun d e h T => ?_, fun d k h => ?_⟩
  · have h := Res.map_eq_err.mp h
    unfold Cardano.keyFromData at h
    split at h
    · cases h; rfl
    · rw [Res.bind_eq_err] at h
      rcases h with h | ⟨_, -, h⟩
      · exact absurd h ofPanic_no_err
      rw [Res.bind_eq_err] at h
      rcases h with h | ⟨_, -, h⟩
      · exact ver h T
      · cases h
  · have h : (seedOrError d >>= fun s => Cardano.dataFromSeed H s) = .err e := h
    rw [Res.bind_eq_err] at h
    rcases h with h | ⟨s, -, h⟩
    · exact seed_quotes h
    · unfold Cardano.dataFromSeed at h
      rw [Res.bind_eq_err] at h
      rcases h with h | ⟨_, -, h⟩
      · exact absurd h ofPanic_no_err
      dsimp only at h
      rw [Res.bind_eq_err] at h
      rcases h with h | ⟨_, -, h⟩
      · exact absurd h ofPanic_no_err
      rw [Res.bind_eq_err] at h
      rcases h with h | ⟨_, -, h⟩
      · exact absurd h ofPanic_no_err
      rw [Res.bind_eq_err] at h
      rcases h with h | ⟨_, -, h⟩
      · exact ver h T
      · cases h
  · obtain ⟨a, rfl⟩ := map_key h; exact cardano_key

end KC.C
