import Verif.Model.Display
import Verif.Props.KeyPath
/-
What can be read off the texts of errors.
-/
namespace KC.ErrorTexts
open KC.Spec

/-- The texts differ at some place they both have. -/
def differ : Str → Str → Bool
  | a :: p, b :: q => a != b || differ p q
  | _, _ => false

theorem differ_ne {p q : Str} (h : differ p q = true) (x y : Str) : p ++ x ≠ q ++ y := by
  induction p generalizing q with
  | nil => simp [differ] at h
  | cons a p ih =>
    cases q with
    | nil => simp [differ] at h
    | cons b q =>
      intro e
      rw [List.cons_append, List.cons_append, List.cons.injEq] at e
      rw [differ, Bool.or_eq_true, bne_iff_ne] at h
      rcases h with h | h
      · exact h e.1
      · exact ih h e.2

theorem differ_ne_left {p q : Str} (h : differ p q = true) (y : Str) : p ≠ q ++ y := by
  have := differ_ne h [] y
  rwa [List.append_nil] at this

theorem differ_ne_right {p q : Str} (h : differ p q = true) (x : Str) : p ++ x ≠ q := by
  have := differ_ne h x []
  rwa [List.append_nil] at this

theorem differ_ne_both {p q : Str} (h : differ p q = true) : p ≠ q := by
  have := differ_ne h [] []
  rwa [List.append_nil, List.append_nil] at this

/-- Starts with something other than a digit. -/
def stops : Str → Bool
  | c :: _ => !decide (48 ≤ c.toNat ∧ c.toNat ≤ 57)
  | [] => true

theorem stops_append {q : Str} (t : Str) (h : stops q = true) (h0 : q ≠ []) : stops (q ++ t) = true := by
  cases q with
  | nil => exact absurd rfl h0
  | cons c q => exact h

theorem cut {d d' x y : Str} (hd : Digits d) (hd' : Digits d') (hx : stops x = true) (hy : stops y = true) (h : d ++ x = d' ++ y) :
    d = d' ∧ x = y := by
  induction d generalizing d' with
  | nil =>
    cases d' with
    | nil => exact ⟨rfl, h⟩
    | cons c d' =>
      rw [List.nil_append, List.cons_append] at h
      subst h
      have := hd' c List.mem_cons_self
      simp [stops] at hx
      omega
  | cons c d ih =>
    cases d' with
    | nil =>
      rw [List.nil_append, List.cons_append] at h
      subst h
      have := hd c List.mem_cons_self
      simp [stops] at hy
      omega
    | cons c' d' =>
      rw [List.cons_append, List.cons_append, List.cons.injEq] at h
      obtain ⟨rfl, h⟩ := h
      obtain ⟨rfl, h2⟩ := ih (fun a ha => hd a (List.mem_cons_of_mem _ ha)) (fun a ha => hd' a (List.mem_cons_of_mem _ ha)) h
      exact ⟨rfl, h2⟩

theorem digits_showNat (n : Nat) : Digits (showNat n) := Props.digits_toDigits n

theorem showNat_inj {n n' : Nat} (h : showNat n = showNat n') : n = n' := by
  have := congrArg decVal h
  rwa [showNat, showNat, Props.decVal_toDigits, Props.decVal_toDigits] at this

theorem num_cut {n n' : Nat} {x y : Str} (hx : stops x = true) (hy : stops y = true) (h : showNat n ++ x = showNat n' ++ y) :
    n = n' ∧ x = y := by
  obtain ⟨h1, h2⟩ := cut (digits_showNat n) (digits_showNat n') hx hy h
  exact ⟨showNat_inj h1, h2⟩

theorem bin_digits (n : Nat) : Digits (showBin8 n) := by
  intro c hc
  rw [showBin8, List.mem_append] at hc
  rcases hc with hc | hc
  · rw [List.eq_of_mem_replicate hc]; decide
  · have := Nat.isDigit_of_mem_toDigits (by decide) (by decide) hc
    simp only [Char.isDigit, Bool.and_eq_true, decide_eq_true_eq, ge_iff_le, UInt32.le_iff_toNat_le] at this
    exact this

theorem bin_inj {n n' : Nat} (h : showBin8 n = showBin8 n') : n = n' := by
  have key : ∀ n, Nat.ofDigitChars 2 (showBin8 n) 0 = n := fun n => by
    rw [showBin8, Nat.ofDigitChars_append, Nat.ofDigitChars_replicate_zero, Nat.mul_zero, Nat.ofDigitChars_toDigits (by decide) (by decide)]
  rw [← key n, h, key]

theorem bin_cut {n n' : Nat} {x y : Str} (hx : stops x = true) (hy : stops y = true) (h : showBin8 n ++ x = showBin8 n' ++ y) :
    n = n' ∧ x = y := by
  obtain ⟨h1, h2⟩ := cut (bin_digits n) (bin_digits n') hx hy h
  exact ⟨bin_inj h1, h2⟩

/-- Number, then fixed text, then anything. -/
theorem num_then {n n' : Nat} {q x y : Str} (hq : stops q = true) (h0 : q ≠ []) (h : showNat n ++ (q ++ x) = showNat n' ++ (q ++ y)) :
    n = n' ∧ x = y := by
  obtain ⟨h1, h2⟩ := num_cut (stops_append x hq h0) (stops_append y hq h0) h
  exact ⟨h1, List.append_cancel_left h2⟩

theorem network_inj {n n' : Network} (h : n.display = n'.display) : n = n' := by
  unfold Network.display at h
  simp only [List.append_assoc] at h
  obtain ⟨h1, -⟩ := num_cut (by decide) (by decide) (List.append_cancel_left h)
  exact UInt32.toNat_inj.mp h1

/-- The network at the end of a text. -/
theorem network_end {n n' : Network} {x y : Str} (h : x ++ n.display = y ++ n'.display) : n = n' ∧ x = y := by
  have key : n = n' := by
    have h := congrArg List.reverse h
    unfold Network.display at h
    simp only [List.reverse_append, List.append_assoc] at h
    have h := List.append_cancel_left h
    have hd : ∀ n, Digits (showNat n).reverse := fun n c hc => digits_showNat n c (List.mem_reverse.mp hc)
    obtain ⟨h1, -⟩ := cut (hd _) (hd _) (stops_append _ (by decide +kernel) (by decide +kernel)) (stops_append _ (by decide +kernel) (by decide +kernel)) h
    exact UInt32.toNat_inj.mp (showNat_inj (List.reverse_injective h1))
  subst key
  exact ⟨rfl, List.append_cancel_right h⟩

/-- Closes a case of two texts with different beginnings. -/
macro "other " h:ident : tactic => `(tactic| first
  | exact absurd $h (differ_ne (by decide +kernel) _ _)
  | exact absurd $h (differ_ne_left (by decide +kernel) _)
  | exact absurd $h (differ_ne_right (by decide +kernel) _)
  | exact absurd $h (differ_ne_both (by decide +kernel)))

theorem bip39_inj {e e' : Bip39.Error} (hl : ∀ w, e ≠ .languageError w) (hl' : ∀ w, e' ≠ .languageError w) (h : e.display = e'.display) :
    e = e' := by
  cases e <;> cases e' <;> unfold Bip39.Error.display at h <;> (try simp only [List.append_assoc] at h)
  case invalidSeedSize.invalidSeedSize => rw [(num_cut (by decide +kernel) (by decide +kernel) (List.append_cancel_left h)).1]
  case wrongNumberOfWords.wrongNumberOfWords => rw [showNat_inj (List.append_cancel_left h)]
  case wrongKeySize.wrongKeySize => rw [showNat_inj (List.append_cancel_left h)]
  case mnemonicOutOfBound.mnemonicOutOfBound => rw [UInt16.toNat_inj.mp (showNat_inj (List.append_cancel_left h))]
  case invalidChecksum.invalidChecksum =>
    obtain ⟨h1, h2⟩ := bin_cut (stops_append _ (by decide +kernel) (by decide +kernel)) (stops_append _ (by decide +kernel) (by decide +kernel))
      (List.append_cancel_left h)
    rw [UInt8.toNat_inj.mp h1, UInt8.toNat_inj.mp (bin_inj (List.append_cancel_left h2))]
  case languageError.languageError w w' => exact absurd rfl (hl w)
  all_goals other h

theorem secp_inj {e e' : Secp.KeyError} (h : e.display = e'.display) : e = e' := by
  cases e <;> cases e' <;> unfold Secp.KeyError.display at h <;> (try simp only [List.append_assoc] at h)
  case invalidSignature.invalidSignature =>
    obtain ⟨h1, h2⟩ := num_then (by decide +kernel) (by decide +kernel) (List.append_cancel_left h)
    rw [h1, showNat_inj h2]
  case invalidDataSize.invalidDataSize =>
    obtain ⟨h1, h2⟩ := num_then (by decide +kernel) (by decide +kernel) (List.append_cancel_left h)
    rw [h1, showNat_inj h2]
  case invalidEntropySize.invalidEntropySize => rw [showNat_inj (List.append_cancel_left h)]
  all_goals first | rfl | other h

theorem cardano_inj {e e' : Cardano.KeyError} (h : e.display = e'.display) : e = e' := by
  cases e <;> cases e' <;> unfold Cardano.KeyError.display at h
  case lengthInvalid.lengthInvalid => rw [showNat_inj (List.append_cancel_left h)]
  all_goals first | rfl | other h

theorem secp_ne_cardano (e : Secp.KeyError) (e' : Cardano.KeyError) : e.display ≠ e'.display := by
  intro h
  cases e <;> cases e' <;> unfold Secp.KeyError.display Cardano.KeyError.display at h <;> (try simp only [List.append_assoc] at h) <;> other h

theorem mnemonic_inj {e e' : Mnemonic.Error} (hl : ∀ w, e ≠ .unknownError (.languageError w)) (hl' : ∀ w, e' ≠ .unknownError (.languageError w))
    (h : e.display = e'.display) : e = e' := by
  cases e <;> cases e' <;> unfold Mnemonic.Error.display at h <;> (try simp only [List.append_assoc] at h)
  case mnemonicToShort.mnemonicToShort =>
    obtain ⟨h1, h2⟩ := num_then (by decide +kernel) (by decide +kernel) (List.append_cancel_left h)
    rw [h1, showNat_inj h2]
  case mnemonicToLong.mnemonicToLong =>
    obtain ⟨h1, h2⟩ := num_then (by decide +kernel) (by decide +kernel) (List.append_cancel_left h)
    rw [h1, showNat_inj h2]
  case mnemonicToShort.mnemonicToLong =>
    obtain ⟨-, h2⟩ := num_cut (stops_append _ (by decide +kernel) (by decide +kernel)) (stops_append _ (by decide +kernel) (by decide +kernel))
      (List.append_cancel_left h)
    other h2
  case mnemonicToLong.mnemonicToShort =>
    obtain ⟨-, h2⟩ := num_cut (stops_append _ (by decide +kernel) (by decide +kernel)) (stops_append _ (by decide +kernel) (by decide +kernel))
      (List.append_cancel_left h)
    other h2
  case wrongNumberOfWords.wrongNumberOfWords => rw [showNat_inj (List.append_cancel_left h)]
  case unsupportedWordFound.unsupportedWordFound => rw [List.append_cancel_right (List.append_cancel_left h)]
  case invalidEntropySize.invalidEntropySize => rw [showNat_inj (List.append_cancel_left h)]
  case unknownError.unknownError e e' =>
    rw [bip39_inj (fun w hw => hl w (by rw [hw])) (fun w hw => hl' w (by rw [hw])) (List.append_cancel_left h)]
  all_goals other h

theorem parse_inj {e e' : KeyPath.ParseIntError} (h : e.display = e'.display) : e = e' := by
  cases e <;> cases e' <;> unfold KeyPath.ParseIntError.display at h <;> first | rfl | other h

theorem path_inj {e e' : KeyPath.Error} (h : e.display = e'.display) : e = e' := by
  cases e <;> cases e' <;> unfold KeyPath.Error.display at h <;> (try simp only [List.append_assoc] at h)
  case invalidPartsCount.invalidPartsCount =>
    rw [(num_then (by decide +kernel) (by decide +kernel) (List.append_cancel_left h)).1]
  case invalidPurpose.invalidPurpose =>
    obtain ⟨h1, h2⟩ := num_then (by decide +kernel) (by decide +kernel) (List.append_cancel_left h)
    rw [UInt32.toNat_inj.mp h1, UInt32.toNat_inj.mp (showNat_inj h2)]
  case invalidPathMarker.invalidPathMarker => rw [List.append_cancel_right (List.append_cancel_left h)]
  case invalidCoin.invalidCoin =>
    obtain ⟨h1, h2⟩ := num_then (by decide +kernel) (by decide +kernel) (List.append_cancel_left h)
    rw [UInt32.toNat_inj.mp h1, UInt32.toNat_inj.mp (showNat_inj h2)]
  case invalidAccount.invalidAccount => rw [UInt32.toNat_inj.mp (showNat_inj (List.append_cancel_left h))]
  case invalidChange.invalidChange => rw [UInt32.toNat_inj.mp (showNat_inj (List.append_cancel_left h))]
  case invalidAddress.invalidAddress => rw [UInt32.toNat_inj.mp (showNat_inj (List.append_cancel_left h))]
  case emptyValueAtIndex.emptyValueAtIndex => rw [showNat_inj (List.append_cancel_left h)]
  case parseErrorAtIndex.parseErrorAtIndex =>
    obtain ⟨h1, h2⟩ := num_then (by decide +kernel) (by decide +kernel) (List.append_cancel_left h)
    rw [h1, parse_inj h2]
  all_goals other h

theorem inner_inj {T : Texts} {e e' : Key.Inner} (hc : ∀ c, e ≠ .custom c) (hc' : ∀ c, e' ≠ .custom c) (h : e.display T = e'.display T) :
    e = e' := by
  cases e with
  | custom c => exact absurd rfl (hc c)
  | secp e =>
    cases e' with
    | custom c => exact absurd rfl (hc' c)
    | secp e' => rw [secp_inj h]
    | cardano e' => exact absurd h (secp_ne_cardano e e')
  | cardano e =>
    cases e' with
    | custom c => exact absurd rfl (hc' c)
    | secp e' => exact absurd h.symm (secp_ne_cardano e' e)
    | cardano e' => rw [cardano_inj h]

end KC.ErrorTexts
