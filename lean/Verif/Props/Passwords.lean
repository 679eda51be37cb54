import Verif.Proofs.Passwords
import Verif.Proofs.CErrors
import Verif.Props.Real
/-
C70: which passwords are the same.
-/
namespace KC.Props
open KC.Manager KC.Spec.Passwords KC.Passwords
open KC.Crypt (decrypt encrypt)
open KC.Mnemonic (Language)

/-- `q` is `p` filled up with NUL characters, within 128 bytes. -/
def Filled (p q : Str) : Prop := Str.len q ≤ 128 ∧ ∃ k, q = p ++ List.replicate k '\x00'

theorem same_symm {p q : Str} (h : Same p q) : Same q p := fun f H A blob hR => (h f H A blob hR).symm

/-- Passwords with the same keys give the same everywhere. -/
theorem decrypt_congr {H : Hashes} {p q : Str} (h : ∀ s, Spec.Crypt.keyOf H p s = Spec.Crypt.keyOf H q s) (A : Aead) (blob : Bytes) :
    decrypt H A blob p = decrypt H A blob q := by
  rcases Nat.lt_or_ge 60 blob.length with hl | hl
  · obtain ⟨s, n, t, c, hp, hc⟩ := Crypt.parts_exist blob hl
    rw [Crypt.decrypt_parts H A p hp hc, Crypt.decrypt_parts H A q hp hc, h]
  · rw [Crypt.decrypt_short H A blob p hl, Crypt.decrypt_short H A blob q hl]

theorem encrypt_congr {ε} {H : Hashes} {p q : Str} (h : ∀ s, Spec.Crypt.keyOf H p s = Spec.Crypt.keyOf H q s) (A : Aead) (data : Bytes) :
    (encrypt H A data p : RM ε Bytes) = encrypt H A data q := by
  rw [Crypt.encrypt_eq, Crypt.encrypt_eq]
  simp only [Crypt.sealed, h]

/-- C70: exactly the passwords that differ in NUL characters at the end only, within 128 bytes, are the same whatever the hash. -/
theorem C70_same (p q : Str) : Same p q ↔ p = q ∨ Filled p q ∨ Filled q p := by
  constructor
  · intro h
    by_cases hp : 128 < Str.len p
    · exact .inl (long_same hp h)
    by_cases hq : 128 < Str.len q
    · exact .inl (long_same hq (same_symm h)).symm
    have e := short_same (Nat.le_of_not_lt hp) (Nat.le_of_not_lt hq) h
    rcases Nat.le_total (Str.len p) (Str.len q) with hl | hl
    · exact .inr (.inl ⟨Nat.le_of_not_lt hq, padded_of hl (Nat.le_of_not_lt hq) e⟩)
    · exact .inr (.inr ⟨Nat.le_of_not_lt hp, padded_of hl (Nat.le_of_not_lt hp) e.symm⟩)
  · rintro (rfl | ⟨hl, k, rfl⟩ | ⟨hl, k, rfl⟩)
    · intro _ _ _ _ _; rfl
    · exact fun f H A blob hR => decrypt_congr (keyOf_congr hR (block_padded f p k hl)) A blob
    · exact fun f H A blob hR => (decrypt_congr (keyOf_congr hR (block_padded f q k hl)) A blob).symm

/-- C70: two different passwords given as C strings are never the same. -/
theorem C70_c (s t : C.CText) (p q : Str) (hs : Json.ofUtf8 s.val = some p) (ht : Json.ofUtf8 t.val = some q) : Same p q ↔ s = t := by
  have hp := C.cText_nul hs
  have hq := C.cText_nul ht
  have key : p = q ↔ s = t := by
    rw [← Subtype.coe_inj, ← C.utf8_ofUtf8 hs, ← C.utf8_ofUtf8 ht]
    exact ⟨fun h => by rw [h], utf8_inj⟩
  have hk : ∀ (a b : Str), '\x00' ∉ b → Filled a b → a = b := by
    rintro a b hb ⟨-, k, rfl⟩
    cases k with
    | zero => simp
    | succ k => exact absurd (List.mem_append_right a (List.mem_replicate.mpr ⟨Nat.succ_ne_zero k, rfl⟩)) hb
  rw [C70_same, ← key]
  exact ⟨fun h => h.elim id fun h => h.elim (hk p q hq) fun h => (hk q p hp h).symm, .inl⟩

/-- Whether the manager's methods, as functions of the password, agree on `p` and `q`. -/
structure Interchangeable (E : Env) (p q : Str) : Prop where
  fromSeed : ∀ itF itK (M : Manager) seed, M.keychainDataFromSeed E itF itK seed p = M.keychainDataFromSeed E itF itK seed q
  fromMnemonic : ∀ itF itK (M : Manager) text lang,
    M.keychainDataFromMnemonic E itF itK text p lang = M.keychainDataFromMnemonic E itF itK text q lang
  open_ : ∀ it (M : Manager) data, M.keychainFromData E it data p = M.keychainFromData E it data q
  old : ∀ data new, changePassword E data p new = changePassword E data q new
  new : ∀ data old, changePassword E data old p = changePassword E data old q
  add : ∀ it (M : Manager) data n, M.addNetwork E it data p n = M.addNetwork E it data q n
  mnemonic : ∀ data, retrieveMnemonic E data p = retrieveMnemonic E data q
  keys : ∀ it data, getKeysData E it data p = getKeysData E it data q

theorem interchangeable {E : Env} {p q : Str} (h : ∀ s, Spec.Crypt.keyOf E.H p s = Spec.Crypt.keyOf E.H q s) : Interchangeable E p q := by
  have hd := decrypt_congr h E.A
  have he := fun data => encrypt_congr (ε := Error) h E.A data
  have hb : ∀ data, keychainDataFromBytes E data p = keychainDataFromBytes E data q := by
    intro data
    rw [keychainDataFromBytes, hd, keychainDataFromBytes]
  have hst : ∀ it data, store E it data p = store E it data q := by
    intro it data
    rw [store, he, store]
  have hn : ∀ itF itK (M : Manager) seed mn lang,
      M.newKeychainData E itF itK seed p mn lang = M.newKeychainData E itF itK seed q mn lang := by
    intro itF itK M seed mn lang
    simp only [newKeychainData, hst]
  constructor
  · intro itF itK M seed; exact hn ..
  · intro itF itK M text lang; exact hn ..
  · intro it M data; simp only [keychainFromData, hb]
  · intro data new; simp only [changePassword, hd]
  · intro data old; simp only [changePassword, he]
  · intro it M data n; simp only [addNetwork, hb, hst]
  · intro data; simp only [retrieveMnemonic, hb]
  · intro it data; simp only [getKeysData, hb]

/-- C70: such passwords may replace each other in every method of the manager, with SHA-512 and with any other hash. -/
theorem C70_filled (E : Env) (f : Bytes → Bytes) (hR : Rfc f E.H) (p q : Str) (h : Filled p q) : Interchangeable E p q := by
  obtain ⟨hl, k, rfl⟩ := h
  exact interchangeable (keyOf_congr hR (block_padded f p k hl))

/-- C70: a password of more than 128 bytes and the text that is its hash may replace each other. -/
theorem C70_long (E : Env) (f : Bytes → Bytes) (hR : Rfc f E.H) (p q : Str) (hp : 128 < Str.len p) (hq : Str.utf8 q = f (Str.utf8 p)) :
    Interchangeable E p q :=
  interchangeable (keyOf_congr hR (block_long f hR.len p q hp hq))

/-- C70: for the library: PBKDF2 with HMAC-SHA512. -/
theorem C70_real (D : Base64.Decoder) (p q : Str) :
    (Filled p q → Interchangeable (realEnv D) p q) ∧
    (128 < Str.len p → Str.utf8 q = Real.sha512 (Str.utf8 p) → Interchangeable (realEnv D) p q) := by
  have hR : Rfc Real.sha512 (realEnv D).H := by
    rw [realEnv_H]
    exact real_rfc
  exact ⟨C70_filled _ _ hR p q, C70_long _ _ hR p q⟩

/-- Non-vacuity of C70: a NUL at the end is not seen, one in front is; long passwords differ from their prefixes. -/
example : Same ['a'] ['a', '\x00', '\x00'] ∧ ¬ Same ['a'] ['\x00', 'a'] ∧ ¬ Same ['a'] ['b'] ∧
    ¬ Same (List.replicate 129 'a') (List.replicate 129 'a' ++ ['\x00']) ∧ ¬ Same [] ['a'] ∧ Same [] ['\x00'] := by
  have hn : ∀ (a b : Str) (c d : Char), (a ++ [c] : Str) ≠ b ++ [d] → c ≠ '\x00' → d ≠ '\x00' → ¬ Same (a ++ [c]) (b ++ [d]) := by
    intro a b c d h hc hd hs
    have hk : ∀ (a b : Str) (c d : Char), d ≠ '\x00' → Filled (a ++ [c]) (b ++ [d]) → a ++ [c] = b ++ [d] := by
      rintro a b c d hd ⟨-, k, hk⟩
      cases k with
      | zero => rw [hk]; simp
      | succ k =>
        rw [List.replicate_succ', ← List.append_assoc] at hk
        exact absurd (List.cons.inj (List.append_inj' hk rfl).2).1 hd
    rcases (C70_same _ _).mp hs with h1 | h1 | h1
    · exact h h1
    · exact h (hk _ _ _ _ hd h1)
    · exact h (hk _ _ _ _ hc h1).symm
  refine ⟨(C70_same _ _).mpr (.inr (.inl ⟨by decide, 2, rfl⟩)), hn [] ['\x00'] 'a' 'a' (by decide) (by decide) (by decide),
    hn [] [] 'a' 'b' (by decide) (by decide) (by decide), fun h => ?_, fun h => ?_, (C70_same _ _).mpr (.inr (.inl ⟨by decide, 1, rfl⟩))⟩
  · rcases (C70_same _ _).mp h with h1 | ⟨h1, -⟩ | ⟨h1, -⟩
    · exact absurd (congrArg List.length h1) (by simp)
    · revert h1; decide +kernel
    · revert h1; decide +kernel
  · rcases (C70_same _ _).mp h with h1 | ⟨-, k, hk⟩ | ⟨-, k, hk⟩
    · cases h1
    · cases k with
      | zero => cases hk
      | succ k => exact absurd (List.cons.inj hk).1 (by decide)
    · cases hk

end KC.Props
