import Verif.Proofs.Birthday
import Verif.Props.Birthday
import Verif.Props.Tamper
import Verif.Props.Manager
/-
C107: how many byte strings a password opens.
-/
namespace KC.Props
open KC KC.Manager KC.Crypt KC.Spec.Crypt KC.Spec.Wallet
open KC.Proofs.Birthday (cnt_ncard cnt_true)
open KC.Real.Chacha (tag crypt crypt_crypt crypt_len tag_len)

theorem ncard_words (T : Nat) : {b : Bytes | b.length = T}.ncard = 256 ^ T := by
  have := cnt_ncard T (fun _ => True)
  simp only [and_true] at this
  rw [this, cnt_true]

theorem real_sealed (H : Hashes) (d : Bytes) (pw : Str) (s : Bytes) (hs : s.length = 44) :
    Parts (sealed H Real.aead d pw (s.take 32) (s.drop 32)) (s.take 32) (s.drop 32)
      (tag (keyOf H pw (s.take 32)) (s.drop 32) (crypt (keyOf H pw (s.take 32)) (s.drop 32) d))
      (crypt (keyOf H pw (s.take 32)) (s.drop 32) d) :=
  ⟨by rw [sealed, Real.aead_enc, Real.Chacha.enc], by simp [hs], by simp [hs], tag_len _ _ _⟩

/-- What decrypts to `d`: the encryptions of `d`. -/
theorem opens_sealed (H : Hashes) (b d : Bytes) (pw : Str) :
    decrypt H Real.aead b pw = .ok d ↔
      d ≠ [] ∧ ∃ s : Bytes, s.length = 44 ∧ b = sealed H Real.aead d pw (s.take 32) (s.drop 32) := by
  constructor
  · intro h
    obtain ⟨hl, hd⟩ := C33_length H Real.aead b d pw h
    refine ⟨hd, ?_⟩
    have hl' : 60 < b.length := by have := List.length_pos_iff.mpr hd; omega
    obtain ⟨salt, nonce, t, ct, hp, hc⟩ := (C33_parts b).1.mp hl'
    obtain ⟨h1, rfl⟩ := (real_dec _ _ _ _ _).mp (((C33_outcome H Real.aead b salt nonce t ct pw hp hc).1 d).mp h)
    refine ⟨salt ++ nonce, by simp [hp.salt_len, hp.nonce_len], ?_⟩
    rw [List.take_append_of_le_length (by rw [hp.salt_len]), List.take_of_length_le (by rw [hp.salt_len]),
      List.drop_append_of_le_length (by rw [hp.salt_len]), List.drop_of_length_le (by rw [hp.salt_len]), List.nil_append, sealed,
      Real.aead_enc, Real.Chacha.enc, crypt_crypt, h1]
    exact hp.eq
  · rintro ⟨hd, s, hs, rfl⟩
    have hp := real_sealed H d pw s hs
    refine ((C33_outcome H Real.aead _ _ _ _ _ pw hp ?_).1 d).mpr ((real_dec _ _ _ _ _).mpr ⟨rfl, (crypt_crypt _ _ _).symm⟩)
    intro h
    have := congrArg List.length h
    rw [crypt_len] at this
    exact hd (List.length_eq_zero_iff.mp this)

/-- C107: a byte string decrypts to `d` with a password exactly if `encrypt` can give it for `d` and the password, with some output of
the random source. -/
theorem C107_language {ε} (H : Hashes) (b d : Bytes) (hd : d ≠ []) (pw : Str) :
    decrypt H Real.aead b pw = .ok d ↔ ∃ r r' : Rng, (encrypt H Real.aead d pw : RM ε Bytes).run r = (.ok b, r') := by
  constructor
  · intro h
    obtain ⟨-, s, hs, rfl⟩ := (opens_sealed H b d pw).mp h
    refine ⟨⟨fun i => s.getD i 0, fun _ => false, 0, 0, false⟩, ?_⟩
    have e : ∀ p k, p + k ≤ 44 → seg (fun i => s.getD i 0) p k = (s.drop p).take k := by
      intro p k hpk
      apply List.ext_getElem
      · simp [seg, hs]; omega
      · intro i h1 h2
        simp only [seg, List.length_map, List.length_range] at h1
        simp [seg, List.getElem?_eq_getElem (show p + i < s.length by omega)]
    rw [encrypt_eq]
    simp only [RM.run]
    rw [fill_healthy 32 rfl rfl]
    simp only
    rw [fill_healthy 12 rfl rfl]
    simp only [Nat.zero_add]
    rw [e 0 32 (by omega), e 32 12 (by omega), List.drop_zero, List.take_of_length_le (l := s.drop 32) (by simp [hs])]
    exact ⟨_, rfl⟩
  · rintro ⟨r, r', h⟩
    exact (C32_roundtrip H Real.aead Real.aead_correct d hd pw r r' b h).1

/-- C107: for each of the contents in `X` a password opens exactly 256^44 byte strings. -/
theorem C107_count (H : Hashes) (pw : Str) (X : Set Bytes) (hX : [] ∉ X) :
    {b : Bytes | ∃ d ∈ X, decrypt H Real.aead b pw = .ok d}.ncard = 256 ^ 44 * X.ncard := by
  have e : {b : Bytes | ∃ d ∈ X, decrypt H Real.aead b pw = .ok d} =
      (fun x : Bytes × Bytes => sealed H Real.aead x.2 pw (x.1.take 32) (x.1.drop 32)) '' ({s : Bytes | s.length = 44} ×ˢ X) := by
    ext b
    constructor
    · rintro ⟨d, hd, h⟩
      obtain ⟨-, s, hs, rfl⟩ := (opens_sealed H b d pw).mp h
      exact ⟨(s, d), ⟨hs, hd⟩, rfl⟩
    · rintro ⟨⟨s, d⟩, ⟨hs, hd⟩, rfl⟩
      exact ⟨d, hd, (opens_sealed H _ d pw).mpr ⟨fun h => hX (h ▸ hd), s, hs, rfl⟩⟩
  rw [e, Set.InjOn.ncard_image, Set.ncard_prod, ncard_words]
  rintro ⟨s, d⟩ ⟨hs, hd⟩ ⟨s', d'⟩ ⟨hs', hd'⟩ h
  have hs : s.length = 44 := hs
  have hs' : s'.length = 44 := hs'
  have h : sealed H Real.aead d pw (s.take 32) (s.drop 32) = sealed H Real.aead d' pw (s'.take 32) (s'.drop 32) := h
  have o := (opens_sealed H _ d pw).mpr ⟨fun h => hX (h ▸ hd), s, hs, rfl⟩
  have o' := (opens_sealed H _ d' pw).mpr ⟨fun h => hX (h ▸ hd'), s', hs', rfl⟩
  rw [h] at o
  obtain rfl : d = d' := Res.ok.inj (o.symm.trans o')
  have hp := real_sealed H d pw s hs
  rw [h] at hp
  obtain ⟨e1, e2, -, -⟩ := (C33_parts _).2 _ _ _ _ _ _ _ _ hp (real_sealed H d pw s' hs')
  rw [Prod.mk.injEq]
  refine ⟨?_, rfl⟩
  rw [← List.take_append_drop 32 s, e1, e2, List.take_append_drop]

/-- C107: of the byte strings of a length above 60 a password opens exactly one in 256^16, of the others none. -/
theorem C107_length (H : Hashes) (pw : Str) (L : Nat) :
    {b : Bytes | b.length = L ∧ ∃ d, decrypt H Real.aead b pw = .ok d}.ncard * 256 ^ 16 = if 60 < L then 256 ^ L else 0 := by
  split
  · rename_i hL
    have e : {b : Bytes | b.length = L ∧ ∃ d, decrypt H Real.aead b pw = .ok d} =
        {b : Bytes | ∃ d ∈ {d : Bytes | d.length = L - 60}, decrypt H Real.aead b pw = .ok d} := by
      ext b
      constructor
      · rintro ⟨rfl, d, h⟩
        have := (C33_length H Real.aead b d pw h).1
        exact ⟨d, by show d.length = _; omega, h⟩
      · rintro ⟨d, hd, h⟩
        have := (C33_length H Real.aead b d pw h).1
        have hd : d.length = L - 60 := hd
        exact ⟨by omega, d, h⟩
    have h0 : [] ∉ {d : Bytes | d.length = L - 60} := by
      intro h
      have h : ([] : Bytes).length = L - 60 := h
      simp only [List.length_nil] at h
      omega
    rw [e, C107_count H pw _ h0, ncard_words, ← Nat.pow_add, ← Nat.pow_add]
    congr 1
    omega
  · rename_i hL
    have e : {b : Bytes | b.length = L ∧ ∃ d, decrypt H Real.aead b pw = .ok d} = ∅ := by
      ext b
      refine ⟨?_, fun h => absurd h (Set.notMem_empty b)⟩
      rintro ⟨rfl, d, h⟩
      rw [(C33_not_enough H Real.aead b pw).mpr (by omega)] at h
      cases h
    rw [e, Set.ncard_empty, Nat.zero_mul]

/-- C107: of the byte strings of a length the share that one of some passwords opens is at most their number to 256^16. -/
theorem C107_passwords (H : Hashes) (Q : Finset Str) (L : Nat) :
    {b : Bytes | b.length = L ∧ ∃ pw ∈ Q, ∃ d, decrypt H Real.aead b pw = .ok d}.ncard * 256 ^ 16 ≤ Q.card * 256 ^ L := by
  classical
  generalize hw : (256 : Nat) ^ 16 = w
  have one : ∀ pw, {b : Bytes | b.length = L ∧ ∃ d, decrypt H Real.aead b pw = .ok d}.ncard * w ≤ 256 ^ L := by
    intro pw
    rw [← hw, C107_length]
    split
    · exact Nat.le_refl _
    · exact Nat.zero_le _
  induction Q using Finset.induction_on with
  | empty =>
    have e : {b : Bytes | b.length = L ∧ ∃ pw ∈ (∅ : Finset Str), ∃ d, decrypt H Real.aead b pw = .ok d} = ∅ := by
      ext b
      refine ⟨?_, fun h => absurd h (Set.notMem_empty b)⟩
      rintro ⟨-, pw, h, -⟩
      exact absurd h (Finset.notMem_empty pw)
    rw [e, Set.ncard_empty, Nat.zero_mul]
    exact Nat.zero_le _
  | insert pw Q hpw ih =>
    have e : {b : Bytes | b.length = L ∧ ∃ p ∈ insert pw Q, ∃ d, decrypt H Real.aead b p = .ok d} =
        {b : Bytes | b.length = L ∧ ∃ d, decrypt H Real.aead b pw = .ok d} ∪
          {b : Bytes | b.length = L ∧ ∃ p ∈ Q, ∃ d, decrypt H Real.aead b p = .ok d} := by
      ext b
      simp only [Finset.mem_insert, Set.mem_union, Set.mem_ofPred_eq, or_and_right, exists_or, exists_eq_left, ← and_or_left]
    rw [e, Finset.card_insert_of_notMem hpw]
    refine Nat.le_trans (Nat.mul_le_mul_right _ (Set.ncard_union_le _ _)) ?_
    rw [Nat.add_mul, Nat.add_mul, Nat.one_mul, Nat.add_comm]
    exact Nat.add_le_add ih (one pw)

/-- C107: the byte strings of a length that are a wallet to a password are 256^44 times the stored wallets of 60 bytes less, and a
manager opens no others. -/
theorem C107_wallets (E : Env) (hA : E.A = Real.aead) (it : Iter (Network × Bytes)) (M : Manager) (pw : Str) (L : Nat) :
    {b : Bytes | b.length = L ∧ ∃ l, getKeysData E it b pw = .ok l}.ncard =
      256 ^ 44 * {d : Bytes | d.length + 60 = L ∧ d ≠ [] ∧ ∃ c, IsWallet E.D c d}.ncard ∧
    ∀ b k, M.keychainFromData E it b pw = .ok k → ∃ l, getKeysData E it b pw = .ok l := by
  constructor
  · rw [← C107_count E.H pw _ (fun h => h.2.1 rfl)]
    congr 1
    ext b
    simp only [Set.mem_ofPred_eq]
    rw [(C62_manager E it M b pw).1]
    constructor
    · rintro ⟨rfl, c, d, h1, h2⟩
      have h := decrypt_opens.mp h1
      rw [hA] at h
      obtain ⟨a1, a2⟩ := C33_length _ _ _ _ _ h
      exact ⟨d, ⟨a1.symm, a2, c, h2⟩, h⟩
    · rintro ⟨d, ⟨rfl, a2, c, h2⟩, h⟩
      refine ⟨(C33_length _ _ _ _ _ h).1, c, d, ?_, h2⟩
      rw [← hA] at h
      exact decrypt_opens.mpr h
  · intro b k h
    unfold keychainFromData at h
    unfold getKeysData
    cases e : keychainDataFromBytes E b pw with
    | ok v => exact ⟨_, rfl⟩
    | err x => rw [e] at h; cases h
    | panic => rw [e] at h; cases h

/-- Non-vacuity: with the actual functions, 256^44 byte strings decrypt to the one byte 7 with the password "p", and of the 256^61 byte
strings of 61 bytes 256^45 decrypt at all. -/
example : {b : Bytes | ∃ d ∈ ({[7]} : Set Bytes), decrypt Real.hashes Real.aead b ['p'] = .ok d}.ncard = 256 ^ 44 ∧
    {b : Bytes | b.length = 61 ∧ ∃ d, decrypt Real.hashes Real.aead b ['p'] = .ok d}.ncard * 256 ^ 16 = 256 ^ 61 := by
  refine ⟨?_, (C107_length Real.hashes ['p'] 61).trans (if_pos (by decide))⟩
  rw [C107_count Real.hashes ['p'] {[7]} (by simp), Set.ncard_singleton, Nat.mul_one]

end KC.Props
