import Verif.Props.Mixed
/-
C101: the values of PBKDF2 that a call rests on.
-/
namespace KC.Props
open KC.Crypt KC.Manager KC.Spec KC.Spec.Crypt KC.Spec.Wallet
open KC.Mnemonic (Language)

/-- Two key-stretching functions give the same wallet key for this password and this blob's salt, its first 32 bytes. -/
def SameKey (H H' : Hashes) (password : Str) (blob : Bytes) : Prop :=
  H.pbkdf2 (Str.utf8 password) (blob.take 32) 19162 32 = H'.pbkdf2 (Str.utf8 password) (blob.take 32) 19162 32

/-- They give the same seed for this phrase (the salt is "mnemonic"). -/
def SameSeed (H H' : Hashes) (text : Str) : Prop := phraseSeed H text = phraseSeed H' text

/-- C101: decryption rests on one value, that for the password and the blob's own salt, and on none if the blob has at most 60 bytes. -/
theorem C101_decrypt (H H' : Hashes) (A : Aead) (blob : Bytes) (pw : Str) (h : 60 < blob.length → SameKey H H' pw blob) :
    decrypt H A blob pw = decrypt H' A blob pw := by
  by_cases hl : blob.length ≤ 60
  · rw [decrypt_short _ _ _ _ hl, decrypt_short _ _ _ _ hl]
  · obtain ⟨salt, nonce, tag, ct, hp, hc⟩ := parts_exist blob (by omega)
    have hs := h (by omega)
    rw [SameKey, hp.eq, List.take_left' hp.salt_len] at hs
    rw [decrypt_parts H A pw hp hc, decrypt_parts H' A pw hp hc, keyOf, keyOf, hs]

theorem data_congr (H H' : Hashes) (A : Aead) (D : Base64.Decoder) (blob : Bytes) (pw : Str) (h : 60 < blob.length → SameKey H H' pw blob) :
    keychainDataFromBytes ⟨H, A, D⟩ blob pw = keychainDataFromBytes ⟨H', A, D⟩ blob pw := by
  rw [keychainDataFromBytes, keychainDataFromBytes, C101_decrypt H H' A blob pw h]

/-- C101: so do opening, exporting and showing the phrase: not the seed's derivation nor any other salt matters. -/
theorem C101_read (H H' : Hashes) (A : Aead) (D : Base64.Decoder) (it : Iter (Network × Bytes)) (M : Manager) (blob : Bytes) (pw : Str)
    (h : 60 < blob.length → SameKey H H' pw blob) :
    M.keychainFromData ⟨H, A, D⟩ it blob pw = M.keychainFromData ⟨H', A, D⟩ it blob pw ∧
    getKeysData ⟨H, A, D⟩ it blob pw = getKeysData ⟨H', A, D⟩ it blob pw ∧
    retrieveMnemonic ⟨H, A, D⟩ blob pw = retrieveMnemonic ⟨H', A, D⟩ blob pw := by
  have e := data_congr H H' A D blob pw h
  exact ⟨by rw [keychainFromData, keychainFromData, e], by rw [getKeysData, getKeysData, e], by rw [retrieveMnemonic, retrieveMnemonic, e]⟩

/-- C101: encryption rests on the value for the password and the salt that the result begins with. -/
theorem C101_encrypt {ε} (H H' : Hashes) (A : Aead) (data blob : Bytes) (pw : Str) (r r' : Rng)
    (h : (encrypt (ε := ε) H A data pw).run r = (.ok blob, r')) (hs : SameKey H H' pw blob) :
    (encrypt (ε := ε) H' A data pw).run r = (.ok blob, r') := by
  rw [encrypt_eq] at h ⊢
  simp only [RM.run] at h ⊢
  rcases h1 : r.fill 32 with ⟨_ | salt, r1⟩
  · rw [h1] at h; cases h
  · rw [h1] at h
    dsimp only at h ⊢
    rcases h2 : r1.fill 12 with ⟨_ | nonce, r2⟩
    · rw [h2] at h; cases h
    · rw [h2] at h
      dsimp only at h ⊢
      rw [Prod.mk.injEq, Res.ok.injEq] at h
      obtain ⟨hb, rfl⟩ := h
      have hl : salt.length = 32 := by rw [(fill_ok h1).2.2.1, seg_length]
      have hp := sealed_parts H A data pw salt nonce hl (by rw [(fill_ok h2).2.2.1, seg_length])
      rw [hb] at hp
      rw [SameKey, hp.eq, List.take_left' hl] at hs
      have : sealed H' A data pw salt nonce = blob := by
        rw [← hb, sealed, sealed, keyOf, keyOf, hs]
      rw [this]

/-- C101: changing the password rests on two values: old password with the old salt, new password with the new salt. -/
theorem C101_change (H H' : Hashes) (A : Aead) (D : Base64.Decoder) (blob blob' : Bytes) (old new : Str) (r r' : Rng)
    (h : (changePassword ⟨H, A, D⟩ blob old new).run r = (.ok blob', r')) (ho : SameKey H H' old blob) (hn : SameKey H H' new blob') :
    (changePassword ⟨H', A, D⟩ blob old new).run r = (.ok blob', r') := by
  rw [changePassword, RM.run_bind, RM.run_lift] at h ⊢
  dsimp only at h ⊢
  rw [← C101_decrypt H H' A blob old fun _ => ho]
  cases hd : (decrypt H A blob old).mapErr Error.ofCrypt with
  | err e => rw [hd] at h; cases h
  | panic => rw [hd] at h; cases h
  | ok d =>
    rw [hd] at h
    exact C101_encrypt H H' A d blob' new r r' h hn

theorem seed_congr (H H' : Hashes) (A : Aead) (D : Base64.Decoder) (M : Manager) (seed : Option Bytes) (mn : Option Str) (l : Option Language)
    (s : Bytes) (h : M.seedFromData ⟨H, A, D⟩ seed mn l = .ok s) (hs : seed = none → ∀ t, mn = some t → SameSeed H H' t) :
    M.seedFromData ⟨H', A, D⟩ seed mn l = .ok s := by
  have h1 := (seedFromData_ok ⟨H, A, D⟩ M ⟨seed, mn, l, NMap.empty⟩ s).mp h
  refine (seedFromData_ok ⟨H', A, D⟩ M ⟨seed, mn, l, NMap.empty⟩ s).mpr ⟨h1.1, ?_⟩
  rw [← h1.2]
  unfold seedOf content
  cases seed with
  | some s => rfl
  | none =>
    cases mn with
    | none => rfl
    | some t => exact congrArg some (hs rfl t rfl).symm

theorem new_congr (H H' : Hashes) (A : Aead) (D : Base64.Decoder) (itF : Iter (Network × Factory)) (itK : Iter (Network × Bytes)) (M : Manager)
    (seed : Option Bytes) (pw : Str) (mn : Option Str) (l : Option Language) (r r' : Rng) (blob : Bytes)
    (h : (M.newKeychainData ⟨H, A, D⟩ itF itK seed pw mn l).run r = (.ok blob, r')) (hk : SameKey H H' pw blob)
    (hs : seed = none → ∀ t, mn = some t → SameSeed H H' t) :
    (M.newKeychainData ⟨H', A, D⟩ itF itK seed pw mn l).run r = (.ok blob, r') := by
  unfold newKeychainData at h ⊢
  rw [RM.run_bind, RM.run_lift] at h ⊢
  cases e : M.seedFromData ⟨H, A, D⟩ seed mn l with
  | err x => rw [e] at h; cases h
  | panic => rw [e] at h; cases h
  | ok s =>
    rw [seed_congr H H' A D M seed mn l s e hs]
    rw [e] at h
    dsimp only at h ⊢
    rw [RM.run_bind, RM.run_lift] at h ⊢
    cases hp : ((itF.order M.factories.entries).map Prod.snd).mapM fun f =>
        ((f.keyDataFromSeed s).map fun data => (f.network, data)).mapErr (Error.keyError f.network) with
    | err x => rw [hp] at h; cases h
    | panic => rw [hp] at h; cases h
    | ok keys =>
      rw [hp] at h
      exact C101_encrypt H H' A _ blob pw r r' h hk

/-- C101: creating a wallet from a seed rests on one value, creating it from a phrase on one more, that of the phrase. -/
theorem C101_create (H H' : Hashes) (A : Aead) (D : Base64.Decoder) (itF : Iter (Network × Factory)) (itK : Iter (Network × Bytes)) (M : Manager)
    (pw : Str) (r r' : Rng) (blob : Bytes) (hk : SameKey H H' pw blob) :
    (∀ seed, (M.keychainDataFromSeed ⟨H, A, D⟩ itF itK seed pw).run r = (.ok blob, r') →
      (M.keychainDataFromSeed ⟨H', A, D⟩ itF itK seed pw).run r = (.ok blob, r')) ∧
    (∀ text l, SameSeed H H' text → (M.keychainDataFromMnemonic ⟨H, A, D⟩ itF itK text pw l).run r = (.ok blob, r') →
      (M.keychainDataFromMnemonic ⟨H', A, D⟩ itF itK text pw l).run r = (.ok blob, r')) := by
  refine ⟨fun seed h => new_congr H H' A D itF itK M _ pw _ _ r r' blob h hk nofun, fun text l hs h =>
    new_congr H H' A D itF itK M _ pw _ _ r r' blob h hk fun _ t e => ?_⟩
  cases e
  exact hs

/-- C101: adding a network rests on the values for the password with the old and with the new salt, and on that of the phrase if the wallet
has no seed. -/
theorem C101_add (H H' : Hashes) (A : Aead) (D : Base64.Decoder) (it : Iter (Network × Bytes)) (M : Manager) (pw : Str) (n : Network)
    (r r' : Rng) (blob blob' : Bytes) (h : (M.addNetwork ⟨H, A, D⟩ it blob pw n).run r = (.ok blob', r'))
    (hk : SameKey H H' pw blob) (hk' : SameKey H H' pw blob')
    (hs : ∀ c, Holds ⟨H, A, D⟩ blob pw c → c.seed = none → ∀ t, c.mnemonic = some t → SameSeed H H' t) :
    (M.addNetwork ⟨H', A, D⟩ it blob pw n).run r = (.ok blob', r') := by
  obtain ⟨f, w, s, d, h1, h2, h3, h4, h5, h6⟩ := add_ok h
  have h2' := h2
  rw [data_congr H H' A D blob pw fun _ => hk] at h2'
  have h4' := seed_congr H H' A D M _ _ _ s h4 (hs _ (loads_iff.mp ⟨w, h2, rfl⟩))
  have h6' := C101_encrypt H H' A _ blob' pw r r' h6 hk'
  unfold addNetwork
  rw [RM.run_bind, RM.run_lift, show M.factories.get n = some f from h1]
  dsimp only [Res.okOr]
  rw [RM.run_bind, RM.run_lift, h2']
  dsimp only
  rw [h3, Option.isSome_none, if_neg Bool.false_ne_true, RM.run_bind, RM.run_lift, h4']
  dsimp only
  rw [RM.run_bind, RM.run_lift, h5]
  exact h6'

/-- C101: making up a phrase rests on none. -/
theorem C101_generate (H H' : Hashes) (hsha : H.sha256 = H'.sha256) (A : Aead) (D : Base64.Decoder) (M : Manager) (l : Option Language) :
    M.generateMnemonic ⟨H, A, D⟩ l = M.generateMnemonic ⟨H', A, D⟩ l := by
  have e : ∀ ent d, Mnemonic.mnemonicFromEntropy H ent d = Mnemonic.mnemonicFromEntropy H' ent d := by
    intro ent d
    simp only [Mnemonic.mnemonicFromEntropy, Bip39.Entropy.toMnemonics, Bip39.Entropy.hash, hsha]
  simp only [generateMnemonic, e]

/-- The hashes with every value of PBKDF2 replaced by zeros, except the one for this password, salt, number of rounds and length. -/
def onlyAt (H : Hashes) (p s : Bytes) (c n : Nat) : Hashes :=
  { H with
    pbkdf2 := fun p' s' c' n' => if p' = p ∧ s' = s ∧ c' = c ∧ n' = n then H.pbkdf2 p' s' c' n' else List.replicate n' 0
    pbkdf2_len := fun p' s' c' n' => by
      split
      · exact H.pbkdf2_len _ _ _ _
      · exact List.length_replicate }

/-- C101: who knows that one value can read the wallet, knowing no other. -/
theorem C101_one (H : Hashes) (A : Aead) (D : Base64.Decoder) (it : Iter (Network × Bytes)) (M : Manager) (blob : Bytes) (pw : Str) :
    M.keychainFromData ⟨H, A, D⟩ it blob pw = M.keychainFromData ⟨onlyAt H (Str.utf8 pw) (blob.take 32) 19162 32, A, D⟩ it blob pw ∧
    getKeysData ⟨H, A, D⟩ it blob pw = getKeysData ⟨onlyAt H (Str.utf8 pw) (blob.take 32) 19162 32, A, D⟩ it blob pw ∧
    retrieveMnemonic ⟨H, A, D⟩ blob pw = retrieveMnemonic ⟨onlyAt H (Str.utf8 pw) (blob.take 32) 19162 32, A, D⟩ blob pw :=
  C101_read H _ A D it M blob pw fun _ => (if_pos ⟨rfl, rfl, rfl, rfl⟩).symm

/-! ### A case -/

/-- Hashes with this PBKDF2 for one password, salt, number of rounds and length, and zeros for all others. -/
def point (H : Hashes) (p s : Bytes) (v : UInt8) : Hashes :=
  { H with
    pbkdf2 := fun p' s' c n => List.replicate n (if p' = p ∧ s' = s ∧ c = 19162 ∧ n = 32 then v else 0)
    pbkdf2_len := fun _ _ _ _ => List.length_replicate }

theorem zeros_ones : (Real.aead.dec (List.replicate 32 1) (List.replicate 12 0) (Real.aead.enc (List.replicate 32 0) (List.replicate 12 0) [7]).1
    (Real.aead.enc (List.replicate 32 0) (List.replicate 12 0) [7]).2).isNone = true := by decide +kernel

/-- The one value is needed: with two functions that differ in it alone, the cipher of the library opens a blob and refuses it. -/
theorem C101_case (H : Hashes) : ∃ (H0 H1 : Hashes) (blob : Bytes) (pw : Str),
    (∀ p s c n, ¬ (p = Str.utf8 pw ∧ s = blob.take 32 ∧ c = 19162 ∧ n = 32) → H0.pbkdf2 p s c n = H1.pbkdf2 p s c n) ∧
    decrypt H0 Real.aead blob pw = .ok [7] ∧ decrypt H1 Real.aead blob pw = .err .decryptionFailed := by
  have hs : (List.replicate 32 (5 : UInt8)).length = 32 := List.length_replicate
  have hp := sealed_parts (point H (Str.utf8 ['p']) (List.replicate 32 5) 0) Real.aead [7] ['p'] (List.replicate 32 5) (List.replicate 12 0) hs
    List.length_replicate
  have k0 : keyOf (point H (Str.utf8 ['p']) (List.replicate 32 5) 0) ['p'] (List.replicate 32 5) = List.replicate 32 0 := by
    show List.replicate 32 _ = _
    rw [ite_self]
  have k1 : keyOf (point H (Str.utf8 ['p']) (List.replicate 32 5) 1) ['p'] (List.replicate 32 5) = List.replicate 32 1 := by
    show List.replicate 32 _ = _
    rw [if_pos ⟨rfl, rfl, rfl, rfl⟩]
  have hc : (Real.aead.enc (List.replicate 32 0) (List.replicate 12 0) [7]).1 ≠ [] := by
    intro h
    have := Real.aead.enc_len (List.replicate 32 0) (List.replicate 12 0) [7]
    rw [h] at this
    cases this
  rw [k0] at hp
  generalize sealed (point H (Str.utf8 ['p']) (List.replicate 32 5) 0) Real.aead [7] ['p'] (List.replicate 32 5) (List.replicate 12 0) = blob at hp
  refine ⟨point H (Str.utf8 ['p']) (List.replicate 32 5) 0, point H (Str.utf8 ['p']) (List.replicate 32 5) 1, blob, ['p'], ?_, ?_, ?_⟩
  · intro p s c n h
    rw [hp.eq, List.take_left' hs] at h
    show List.replicate n _ = List.replicate n _
    rw [ite_self, if_neg h]
  · rw [decrypt_parts _ _ _ hp hc, k0, ← realEnv_A Base64.strict, realEnv_correct Base64.strict]
  · rw [decrypt_parts _ _ _ hp hc, k1, Option.isNone_iff_eq_none.mp zeros_ones]

end KC.Props
