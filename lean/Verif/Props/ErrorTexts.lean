import Verif.Proofs.ErrorTexts
import Verif.Proofs.Telling
import Verif.Props.CApi
/-
Property C68: the text of an error tells which error it is.
-/
namespace KC.Props
open KC.C KC.Spec.C KC.ErrorTexts

theorem key_inj {T : Texts} {n : Network} {e e' : Key.Error} (ht : Telling (.keyError n e)) (ht' : Telling (.keyError n e'))
    (h : e.display T = e'.display T) : e = e' := by
  cases e <;> cases e' <;> unfold Key.Error.display at h <;> (try simp only [List.append_assoc] at h)
  case invalidKeyPath.invalidKeyPath => rw [path_inj (List.append_cancel_left h)]
  case invalidMnemonic.invalidMnemonic => rw [mnemonic_inj ht ht' (List.append_cancel_left h)]
  case invalidKeySize.invalidKeySize =>
    obtain ⟨h1, h2⟩ := num_then (by decide +kernel) (by decide +kernel) (List.append_cancel_left h)
    rw [h1, showNat_inj h2]
  case invalidKeyData.invalidKeyData => rw [inner_inj ht ht' (List.append_cancel_left h)]
  case invalidSignatureSize.invalidSignatureSize =>
    obtain ⟨h1, h2⟩ := num_then (by decide +kernel) (by decide +kernel) (List.append_cancel_left h)
    rw [h1, showNat_inj h2]
  case signError.signError => rw [inner_inj ht ht' (List.append_cancel_left h)]
  all_goals other h

/-- The text of such a key error does not depend on the texts of external errors. -/
theorem key_text {T T' : Texts} {n : Network} {e : Key.Error} (ht : Telling (.keyError n e)) : e.display T = e.display T' := by
  cases e with
  | invalidKeyData c =>
    cases c with
    | custom c => exact absurd rfl (ht c)
    | _ => unfold Key.Error.display Key.Inner.display; rfl
  | signError c =>
    cases c with
    | custom c => exact absurd rfl (ht c)
    | _ => unfold Key.Error.display Key.Inner.display; rfl
  | _ => unfold Key.Error.display; rfl

/-- C68: equal texts mean the same error, with the same numbers, network, word or path marker in it. -/
theorem C68_text (T T' : Texts) (e e' : Error) (ht : Telling e) (ht' : Telling e') (h : e.display T = e'.display T') : e = e' := by
  cases e <;> cases e' <;> unfold Error.display at h <;> (try simp only [List.append_assoc] at h)
  case wrongPassword.wrongPassword => rfl
  case notEnoughData.notEnoughData => rfl
  case seedIsNotSaved.seedIsNotSaved => rfl
  case dataError.dataError => rfl
  case cantCalculateSeedSize.cantCalculateSeedSize =>
    obtain ⟨h1, h2⟩ := num_then (by decide +kernel) (by decide +kernel) (List.append_cancel_left h)
    obtain ⟨h3, -⟩ := num_cut (by decide +kernel) (by decide +kernel) h2
    rw [h1, h3]
  case invalidSeedSize.invalidSeedSize => rw [showNat_inj (List.append_cancel_left h)]
  case keyDoesNotExist.keyDoesNotExist => rw [network_inj (List.append_cancel_right (List.append_cancel_left h))]
  case keyAlreadyExist.keyAlreadyExist => rw [network_inj (List.append_cancel_right (List.append_cancel_left h))]
  case keyDoesNotExist.keyAlreadyExist =>
    have h := List.append_cancel_left h
    unfold Network.display at h
    simp only [List.append_assoc] at h
    obtain ⟨-, h2⟩ := num_then (by decide +kernel) (by decide +kernel) (List.append_cancel_left h)
    other h2
  case keyAlreadyExist.keyDoesNotExist =>
    have h := List.append_cancel_left h
    unfold Network.display at h
    simp only [List.append_assoc] at h
    obtain ⟨-, h2⟩ := num_then (by decide +kernel) (by decide +kernel) (List.append_cancel_left h)
    other h2
  case networkIsNotSupported.networkIsNotSupported => rw [network_inj (List.append_cancel_right (List.append_cancel_left h))]
  case keyError.keyError =>
    have h := List.append_cancel_left h
    rw [← List.append_assoc, ← List.append_assoc] at h
    obtain ⟨rfl, h2⟩ := network_end h
    have h2 := List.append_cancel_right h2
    rw [key_text (T := T) (T' := T') ht] at h2
    rw [key_inj ht ht' h2]
  case mnemonicError.mnemonicError => rw [mnemonic_inj ht ht' (List.append_cancel_left h)]
  case keyPathError.keyPathError => rw [path_inj (List.append_cancel_left h)]
  all_goals other h

/-- C68: so do the texts of the errors of decryption and of reading hexadecimal (which the keychain replaces by its own). -/
theorem C68_inner (e e' : Crypt.DecryptError) (x x' : Hex.Error) :
    (e.display = e'.display → e = e') ∧ (x.display = x'.display → x = x') := by
  constructor
  · intro h
    cases e <;> cases e' <;> first | rfl | exact absurd h (by decide +kernel)
  · intro h
    cases x
    cases x'
    unfold Hex.Error.display at h
    rw [showNat_inj (List.append_cancel_left h)]

/-- C68: the errors a call gives on a null or live handle of a manager or keychain of the built-in networks (below) have texts of their
own. -/
theorem C68_telling (W : Build) (x : Ctx) (t : Target) {k : Kind} (f : Fn k) (r : Rng) (e : Error) (ht : t.Telling)
    (h : ((f.lib W x t).run r).1 = .err e) : Telling e := lib_tells ht h

/-- C68: the managers the C interface makes satisfy the hypothesis ... -/
theorem C68_builtin (H : Hashes) (C : Secp.Curve) (Ed : Cardano.Ed) (M : Manager) (r : Rng) (hb : BuiltIn H C Ed M) :
    (Target.manager M r).Telling := by
  intro n f hf
  rcases hb.factory hf with ⟨-, rfl⟩ | ⟨-, rfl⟩ | ⟨-, rfl⟩
  · exact cardano_factory_telling ..
  · exact ethereum_factory_telling ..
  · exact bitcoin_factory_telling ..

/-- C68: ... and so do the keychains they open. -/
theorem C68_opened (E : Env) (it : Iter (Network × Bytes)) (M : Manager) (r : Rng) (blob : Bytes) (pw : Str) (kc : Keychain)
    (hq : (Target.manager M r).Telling) (h : M.keychainFromData E it blob pw = .ok kc) : (Target.keychain kc).Telling :=
  opened_tells hq h

theorem text_inj {h : Heap} {p : Ptr} {s s' : Str} (a : TextAt h p s) (b : TextAt h p s') : s = s' := by
  obtain ⟨-, i, rfl, hi⟩ := a
  obtain ⟨-, j, e, hj⟩ := b
  cases e
  have e : some (some (⟨⟨(Str.utf8 s).length + 1, 1⟩, .text (Str.utf8 s)⟩ : Block)) = some (some ⟨⟨(Str.utf8 s').length + 1, 1⟩, .text (Str.utf8 s')⟩) :=
    hi.symm.trans hj
  have e : Str.utf8 s = Str.utf8 s' := by
    have := (Block.mk.inj (Option.some.inj (Option.some.inj e))).2
    injection this
  exact Option.some.inj ((Json.ofUtf8_utf8 s).symm.trans ((congrArg Json.ofUtf8 e).trans (Json.ofUtf8_utf8 s')))

theorem told (W : Build) (x : Ctx) (p : Ptr) {k : Kind} (f : Fn k) (val v : Val k) (err r : ErrorPtr) (h h1 : Heap) (t : Target)
    (ht : Names W h p f.handle t) (hc : f.call W x p val err h = .ret false v r h1) (ty : ErrorType) (s : Str) (hty : ty ≠ .panic)
    (hr : Reads W h1 .error r (ty, s)) :
    ∃ e, ((f.lib W x t).run t.rng).1 = .err e ∧ ty = errorType e ∧ s = e.display x.texts := by
  have hE := call_ends x val err ht
  rw [hc] at hE
  cases hE with
  | bad e' ty' s' b h1 h2 h3 =>
    obtain ⟨rfl, hs⟩ := hr
    rcases h3 with ⟨er, h3, rfl, rfl⟩ | ⟨-, rfl, -⟩
    · exact ⟨er, h3, h1.1, text_inj hs h1.2⟩
    · exact absurd h1.1 hty

/-- C68: what C reads tells what happened.  Two calls, of any functions, on any such handles, in any memory, that return false and whose
error variables hold the same type, not Panic, and the same text: the library gave the same error. -/
theorem C68_through (W W' : Build) (x x' : Ctx) (p p' : Ptr) {k k' : Kind} (f : Fn k) (f' : Fn k') (val v : Val k) (val' v' : Val k')
    (err r err' r' : ErrorPtr) (h h1 h' h1' : Heap) (t t' : Target) (ht : Names W h p f.handle t) (ht' : Names W' h' p' f'.handle t')
    (hq : t.Telling) (hq' : t'.Telling) (hc : f.call W x p val err h = .ret false v r h1)
    (hc' : f'.call W' x' p' val' err' h' = .ret false v' r' h1') (ty : ErrorType) (s : Str) (hty : ty ≠ .panic)
    (hr : Reads W h1 .error r (ty, s)) (hr' : Reads W' h1' .error r' (ty, s)) :
    ∃ e, ((f.lib W x t).run t.rng).1 = .err e ∧ ((f'.lib W' x' t').run t'.rng).1 = .err e ∧ ty = errorType e ∧
      s = e.display x.texts := by
  obtain ⟨e, he, e1, e2⟩ := told W x p f val v err r h h1 t ht hc ty s hty hr
  obtain ⟨e', he', e1', e2'⟩ := told W' x' p' f' val' v' err' r' h' h1' t' ht' hc' ty s hty hr'
  have : e = e' := C68_text x.texts x'.texts e e' (lib_tells hq he) (lib_tells hq' he') (e2.symm.trans e2')
  subst this
  exact ⟨e, he, he', e1, e2⟩

/-- C68: the text of a panic is the panic's own, or `Reason: Any` if it has none: that is what C reads when the library panics on a null
or live handle (and C text can carry it), with type Panic. -/
theorem C68_panic (W : Build) (x : Ctx) (p : Ptr) {k : Kind} (f : Fn k) (val : Val k) (err : ErrorPtr) (h : Heap) (t : Target)
    (ht : Names W h p f.handle t) (hp : ((f.lib W x t).run t.rng).1 = .panic) :
    (∀ s, x.panic = .text s → '\x00' ∉ s → ∃ r h', f.call W x p val err h = .ret false val r h' ∧ Reads W h' .error r (.panic, s)) ∧
    (x.panic = .other → ∃ r h', f.call W x p val err h = .ret false val r h' ∧ Reads W h' .error r (.panic, "Reason: Any".toList)) := by
  have key := (C49_outcome W x p f val err h t ht).2.2 (.inl hp)
  constructor
  · intro s hs h0
    have e : x.panic.message = s := by rw [hs]; rfl
    rw [e] at key
    exact key h0
  · intro hs
    have e : x.panic.message = "Reason: Any".toList := by rw [hs]; rfl
    rw [e] at key
    exact key (by decide +kernel)

/-! ### Non-vacuity -/

/-- Neighbouring errors: same key error, other network. -/
example : (Error.keyError 0x8000003c (.invalidMnemonic (.unknownError (.invalidSeedSize 7)))).display ⟨[], fun _ => []⟩ ≠
    (Error.keyError 0x80000000 (.invalidMnemonic (.unknownError (.invalidSeedSize 7)))).display ⟨[], fun _ => []⟩ := fun h =>
  absurd (C68_text _ _ (.keyError 0x8000003c (.invalidMnemonic (.unknownError (.invalidSeedSize 7))))
    (.keyError 0x80000000 (.invalidMnemonic (.unknownError (.invalidSeedSize 7)))) (fun _ => nofun) (fun _ => nofun) h)
    (fun e => absurd (Error.keyError.inj e).1 (by decide))

/-- Too short and too long differ by three letters (the text of the second says "too short. Max:"). -/
example : (Error.mnemonicError (.mnemonicToShort 7 12)).display ⟨[], fun _ => []⟩ = "Mnemonic error Mnemonic 7 too short. Min: 12".toList ∧
    (Error.mnemonicError (.mnemonicToLong 7 12)).display ⟨[], fun _ => []⟩ = "Mnemonic error Mnemonic 7 too short. Max: 12".toList := by
  decide +kernel

/-- Without the hypothesis it is false: unknown words as unknown errors all have the same text. -/
example : ∃ e e' : Error, e ≠ e' ∧ ∀ T, e.display T = e'.display T :=
  ⟨.mnemonicError (.unknownError (.languageError (.wordNotFound ['x']))), .mnemonicError (.unknownError (.languageError (.wordNotFound ['y']))),
    (by intro e; cases e), fun _ => by unfold Error.display Mnemonic.Error.display Bip39.Error.display; rfl⟩

theorem toy_telling : (Target.manager (toyManager [1, 2]) countingRng).Telling := by
  intro n f hf
  rw [toyManager_get] at hf
  split at hf
  · cases hf
    refine ⟨fun d e h => ?_, fun d e h => ?_, fun d k h => ?_⟩
    · cases h
    · cases h
    · cases h; exact ⟨nofun, nofun, nofun⟩
  · cases hf

theorem toy_names {k : Kind} (f : Fn k) (h : f.handle = some .manager) :
    Names toyBuild oneManager (.to 0) f.handle (.manager (toyManager [1, 2]) countingRng) := by
  rw [h]; exact .manager 0 _ _ rfl rfl

/-- `C68_through`: opening too little data, and changing its password: C reads the same, and the library gave the same error. -/
example : ∃ v r h' v' r' h'', (Fn.open [1, 2, 3] ⟨[112], by decide⟩).call toyBuild toyCtx (.to 0) .null ⟨.panic, .null⟩ oneManager =
      .ret false v r h' ∧
    (Fn.change [7] ⟨[112], by decide⟩ ⟨[113], by decide⟩).call toyBuild toyCtx (.to 0) ⟨.null, 0⟩ ⟨.panic, .null⟩ oneManager =
      .ret false v' r' h'' ∧
    Reads toyBuild h' .error r (.notEnoughData, "Not enough data to load keychain".toList) ∧
    Reads toyBuild h'' .error r' (.notEnoughData, "Not enough data to load keychain".toList) ∧
    ∃ e, (((Fn.open [1, 2, 3] ⟨[112], by decide⟩).lib toyBuild toyCtx (.manager (toyManager [1, 2]) countingRng)).run countingRng).1 = .err e ∧
      (((Fn.change [7] ⟨[112], by decide⟩ ⟨[113], by decide⟩).lib toyBuild toyCtx (.manager (toyManager [1, 2]) countingRng)).run
        countingRng).1 = .err e := by
  obtain ⟨r, h', h1, h2⟩ := (C49_outcome toyBuild toyCtx (.to 0) (Fn.open [1, 2, 3] ⟨[112], by decide⟩) .null ⟨.panic, .null⟩ oneManager
    (.manager (toyManager [1, 2]) countingRng) (toy_names _ rfl)).2.1 .notEnoughData rfl (by decide +kernel)
  obtain ⟨r', h'', h3, h4⟩ := (C49_outcome toyBuild toyCtx (.to 0) (Fn.change [7] ⟨[112], by decide⟩ ⟨[113], by decide⟩) ⟨.null, 0⟩
    ⟨.panic, .null⟩ oneManager (.manager (toyManager [1, 2]) countingRng) (toy_names _ rfl)).2.1 .notEnoughData rfl (by decide +kernel)
  obtain ⟨e, e1, e2, -⟩ := C68_through toyBuild toyBuild toyCtx toyCtx _ _ _ _ _ _ _ _ _ _ _ _ _ _ _ _ _ _ (toy_names _ rfl) (toy_names _ rfl)
    toy_telling toy_telling h1 h3 .notEnoughData _ nofun h2 h4
  exact ⟨_, r, h', _, r', h'', h1, h3, h2, h4, e, e1, e2⟩

/-- `C68_panic`: a null handle, with a panic that has a text and with one that has none. -/
example : (∃ r h', (Fn.generate .english).call toyBuild toyCtx .null .null ⟨.keyError, .null⟩ [] = .ret false .null r h' ∧
      Reads toyBuild h' .error r (.panic, "boom".toList)) ∧
    ∃ r h', (Fn.generate .english).call toyBuild { toyCtx with panic := .other } .null .null ⟨.keyError, .null⟩ [] = .ret false .null r h' ∧
      Reads toyBuild h' .error r (.panic, "Reason: Any".toList) :=
  ⟨(C68_panic toyBuild toyCtx .null (Fn.generate .english) .null ⟨.keyError, .null⟩ [] .null (.null _ rfl) rfl).1 _ rfl (by decide +kernel),
   (C68_panic toyBuild { toyCtx with panic := .other } .null (Fn.generate .english) .null ⟨.keyError, .null⟩ [] .null (.null _ rfl) rfl).2 rfl⟩

end KC.Props
