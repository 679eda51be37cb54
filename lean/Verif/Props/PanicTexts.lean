import Verif.Model.PanicTexts
import Verif.Proofs.ErrorTexts
import Verif.Props.CApi
import Verif.Props.Seeds
/-
C111: what the text of a panic tells.
-/
namespace KC.Props
open KC KC.C KC.Spec KC.Spec.C KC.Spec.Wallet KC.Mnemonic

theorem more_inj : ∀ {r r' : Bytes} {x x' : Str}, moreBytes r ++ ']' :: x = moreBytes r' ++ ']' :: x' → r = r'
  | [], [], _, _, _ => rfl
  | [], _ :: _, _, _, h => absurd (List.cons.inj h).1 (by decide)
  | _ :: _, [], _, _, h => absurd (List.cons.inj h).1 (by decide)
  | a :: r, a' :: r', x, x', h => by
    have st : ∀ (r : Bytes) (x : Str), KC.ErrorTexts.stops (moreBytes r ++ ']' :: x) = true := by
      intro r x
      cases r <;> rfl
    simp only [moreBytes, List.append_assoc] at h
    have h := List.append_cancel_left h
    obtain ⟨h1, h2⟩ := KC.ErrorTexts.num_cut (st r x) (st r' x') h
    rw [UInt8.toNat_inj.mp h1, more_inj h2]

theorem bytes_inj {b b' : Bytes} {x x' : Str} (h : bytesDebug b ++ x = bytesDebug b' ++ x') : b = b' := by
  have st : ∀ (r : Bytes) (x : Str), KC.ErrorTexts.stops (moreBytes r ++ ']' :: x) = true := by
    intro r x
    cases r <;> rfl
  have no : ∀ (a : UInt8) (r : Bytes) (x x' : Str), "[]".toList ++ x ≠ bytesDebug (a :: r) ++ x' := by
    intro a r x x' h
    have h : ([] : Str) ++ ']' :: x = showNat a.toNat ++ (moreBytes r ++ ']' :: x') := by
      have := (List.cons.inj (show '[' :: (']' :: x) = '[' :: ((showNat a.toNat ++ (moreBytes r ++ "]".toList)) ++ x') from h)).2
      rw [List.append_assoc, List.append_assoc] at this
      exact this
    exact Nat.toDigits_ne_nil (KC.ErrorTexts.cut (fun _ hc => absurd hc List.not_mem_nil) (KC.ErrorTexts.digits_showNat _) rfl (st r x') h).1.symm
  cases b with
  | nil =>
    cases b' with
    | nil => rfl
    | cons a' r' => exact absurd h (no a' r' x x')
  | cons a r =>
    cases b' with
    | nil => exact absurd h.symm (no a r x' x)
    | cons a' r' =>
      have h := (List.cons.inj (show '[' :: ((showNat a.toNat ++ (moreBytes r ++ "]".toList)) ++ x) =
        '[' :: ((showNat a'.toNat ++ (moreBytes r' ++ "]".toList)) ++ x') from h)).2
      rw [List.append_assoc, List.append_assoc, List.append_assoc, List.append_assoc] at h
      obtain ⟨h1, h2⟩ := KC.ErrorTexts.num_cut (st r x) (st r' x') h
      rw [UInt8.toNat_inj.mp h1, more_inj h2]

/-- C111: the text of the panic determines the text that could not be handed out. -/
theorem C111_reveals (s s' : Str) (h : toCstrPanic s = toCstrPanic s') : s = s' := by
  unfold toCstrPanic at h
  have h := PanicPayload.text.inj h
  unfold unwrapText at h
  have h := List.append_cancel_left h
  unfold nulErrorDebug at h
  have h := List.append_cancel_left h
  obtain ⟨-, h⟩ := KC.ErrorTexts.num_then (q := ", ".toList) (by decide +kernel) (by decide +kernel) h
  exact Passwords.utf8_inj (bytes_inj h)

theorem nul_more (r : Bytes) : '\x00' ∉ moreBytes r := by
  induction r with
  | nil => nofun
  | cons a r ih =>
    rw [moreBytes, List.mem_append, List.mem_append]
    rintro (h | h | h)
    · revert h; decide +kernel
    · exact nul_showNat _ h
    · exact ih h

theorem nul_panic (s : Str) : '\x00' ∉ (toCstrPanic s).message := by
  unfold toCstrPanic PanicPayload.message unwrapText nulErrorDebug
  simp only [List.mem_append]
  have hb : '\x00' ∉ bytesDebug (Str.utf8 s) := by
    cases Str.utf8 s with
    | nil => decide
    | cons a r =>
      rw [bytesDebug]
      simp only [List.mem_append]
      rintro (h | h | h | h)
      · revert h; decide +kernel
      · exact nul_showNat _ h
      · exact nul_more _ h
      · revert h; decide +kernel
  rintro (h | h | h | h | h | h)
  · revert h; decide +kernel
  · revert h; decide +kernel
  · exact nul_showNat _ h
  · revert h; decide +kernel
  · exact hb h
  · revert h; decide +kernel

/-- C111: a wallet stores a phrase with a NUL.  Asking for the phrase with the password through the C interface returns false with a Panic
error, in whose text C reads the panic of `to_cstr`. -/
theorem C111_retrieve (W : Build) (x : Ctx) (i : Nat) (M : Manager) (r : Rng) (h : Heap) (hl : Live h i W.manager (.manager M r))
    (blob : Bytes) (pw : CText) (t : Str) (ht : Json.ofUtf8 pw.val = some t) (c : Content) (hH : Holds W.E blob t c)
    (m : Str) (l : Language) (hm : c.mnemonic = some m) (hlang : c.language = some l) (h0 : '\x00' ∈ m) (hx : x.panic = toCstrPanic m)
    (val : MnemonicInfoPtr) (err : ErrorPtr) :
    ∃ e h', (Fn.retrieve blob pw).call W x (.to i) val err h = .ret false val e h' ∧
      Reads W h' .error e (.panic, unwrapText (nulErrorDebug (Str.utf8 m))) := by
  have hn := nul_panic m
  rw [← hx] at hn
  have o := (C49_outcome W x (.to i) (.retrieve blob pw) val err h (.manager M r) (.manager i M r rfl hl)).2.2 (.inr ⟨(m, l), ?_, ?_⟩) hn
  · rw [hx] at o
    exact o
  · show ((decode pw fun pw => .ret (Manager.retrieveMnemonic W.E blob pw)).run r).1 = _
    rw [run_decode, ht]
    exact (C41_retrieve W.E blob t c hH).1 m l hm hlang
  · exact fun hf => hf ((nul_utf8 m).mpr h0)

/-- C111: no wallet that the library makes stores such a phrase. -/
theorem C111_own (size : Nat) (l : Language) (m : Str) (h : Phrase size l m) : '\x00' ∉ m := by
  obtain ⟨ws, rfl, hw, -⟩ := h
  exact phrase_nul hw

/-- Non-vacuity: the text for "a", NUL, "é". -/
example : (toCstrPanic ['a', '\x00', 'é']).message =
    "called `Result::unwrap()` on an `Err` value: NulError(1, [97, 0, 195, 169])".toList := by decide +kernel

/-- Non-vacuity of `C111_retrieve`: a wallet with a NUL in its phrase. -/
example : ∃ blob e h', (Fn.retrieve blob ⟨[112], by decide⟩).call toyBuild { toyCtx with panic := toCstrPanic ['a', '\x00'] } (.to 0)
      ⟨.null, .english⟩ ⟨.keyError, .null⟩ oneManager = .ret false ⟨.null, .english⟩ e h' ∧
    Reads toyBuild h' .error e (.panic, unwrapText (nulErrorDebug [97, 0])) := by
  obtain ⟨blob, r', hst⟩ := Manager.store_runs toyEnv forwards ⟨none, some ['a', '\x00'], some .english, NMap.ofList []⟩ ['p'] counting_delivers
  have hH := Manager.store_holds (E := toyEnv) toyAead_correct hst
  exact ⟨blob, C111_retrieve toyBuild _ 0 (toyManager [1, 2]) countingRng oneManager rfl blob ⟨[112], by decide⟩ ['p']
    (by decide +kernel) _ hH ['a', '\x00'] .english rfl rfl (by decide) rfl _ _⟩

end KC.Props
