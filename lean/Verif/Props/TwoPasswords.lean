import Verif.Real.TwoKeys
import Verif.Props.Repeats
/-
C98: one blob for two passwords, with ChaCha20-Poly1305 itself.
-/
namespace KC.Real.Chacha

/-- A byte of the key stream. -/
def sb (key nonce : Bytes) (i : Nat) : UInt8 := (stream key nonce 1 (i + 1)).getD i 0

theorem crypt_get (key nonce x : Bytes) (i : Nat) : (crypt key nonce x)[i]? = (x[i]?).map (· ^^^ sb key nonce i) := by
  by_cases hi : i < x.length
  · obtain ⟨n, hn⟩ : ∃ n, n = (x.length + 63) / 64 + (i + 1) := ⟨_, rfl⟩
    have e : ∀ m, m ≤ n → i < 64 * m → (stream key nonce 1 m)[i]? = (stream key nonce 1 n)[i]? := by
      intro m hm hi
      obtain ⟨rest, hr⟩ := stream_add key nonce 1 m (n - m)
      rw [Nat.add_sub_cancel' hm] at hr
      rw [hr, List.getElem?_append_left (by rw [stream_len]; exact hi)]
    rw [crypt, List.getElem?_zipWith, e _ (by omega) (by omega), sb, List.getD_eq_getElem?_getD, e (i + 1) (by omega) (by omega),
      List.getElem?_eq_getElem hi, List.getElem?_eq_getElem (by rw [stream_len]; omega : i < (stream key nonce 1 n).length)]
    rfl
  · rw [List.getElem?_eq_none (by rw [crypt_len]; omega), List.getElem?_eq_none (by omega)]
    rfl

theorem crypt_take (key nonce a b : Bytes) : (crypt key nonce (a ++ b)).take a.length = crypt key nonce a := by
  apply List.ext_getElem?
  intro i
  by_cases hi : i < a.length
  · rw [List.getElem?_take_of_lt hi, crypt_get, crypt_get, List.getElem?_append_left hi]
  · rw [List.getElem?_eq_none (by rw [List.length_take, crypt_len]; omega), List.getElem?_eq_none (by rw [crypt_len]; omega)]

theorem crypt_drop (key nonce a a' b : Bytes) (h : a.length = a'.length) :
    (crypt key nonce (a ++ b)).drop a.length = (crypt key nonce (a' ++ b)).drop a.length := by
  apply List.ext_getElem?
  intro i
  rw [List.getElem?_drop, List.getElem?_drop, crypt_get, crypt_get, List.getElem?_append_right (by omega),
    List.getElem?_append_right (by omega), h]

/-- The ciphertext that reads `w` under one key at the beginning, and `w'` under another one after that. -/
def mixed (k k' nonce w w' : Bytes) : Bytes := crypt k nonce w ++ (crypt k' nonce (List.replicate w.length 0 ++ w')).drop w.length

theorem mixed_length (k k' nonce w w' : Bytes) : (mixed k k' nonce w w').length = w.length + w'.length := by
  simp [mixed, crypt_len]

theorem mixed_first (k k' nonce w w' z : Bytes) : w <+: crypt k nonce (mixed k k' nonce w w' ++ z) := by
  have h := crypt_take k nonce (crypt k nonce w) ((crypt k' nonce (List.replicate w.length 0 ++ w')).drop w.length ++ z)
  rw [crypt_crypt, crypt_len] at h
  rw [mixed, List.append_assoc]
  exact (show ∀ y : Bytes, y.take w.length = w → w <+: y from fun y e => e ▸ List.take_prefix _ _) _ h

theorem mixed_second (k k' nonce w w' z : Bytes) : w' <+: (crypt k' nonce (mixed k k' nonce w w' ++ z)).drop w.length := by
  obtain ⟨X, hX⟩ : ∃ X, X = crypt k' nonce (List.replicate w.length 0 ++ w') := ⟨_, rfl⟩
  have hl : X.length = w.length + w'.length := by simp [hX, crypt_len]
  have h1 := crypt_drop k' nonce (crypt k nonce w) (X.take w.length) (X.drop w.length ++ z)
    (by rw [crypt_len, List.length_take, hl]; omega)
  rw [← List.append_assoc, ← List.append_assoc, List.take_append_drop, crypt_len] at h1
  rw [mixed, ← hX, h1]
  have h2 := crypt_take k' nonce X z
  have h3 : crypt k' nonce X = List.replicate w.length 0 ++ w' := by rw [hX, crypt_crypt]
  rw [h3] at h2
  have h4 := congrArg (List.drop w.length) h2
  rw [List.drop_left' (by simp), List.drop_take] at h4
  exact h4 ▸ List.take_prefix _ _

end KC.Real.Chacha

namespace KC.Props
open KC.Crypt (decrypt encrypt)
open KC.Spec.Crypt
open KC.Spec.Wallet (Delivers)
open KC.Real.Chacha (block)
open KC.Spec.Bip32 (be)

/-- The secret pad of Poly1305 (RFC 8439, 2.5 and 2.6): the second sixteen bytes of block 0, as a little-endian number. -/
def secretPad (key nonce : Bytes) : Nat := be (((block key nonce 0).drop 16).take 16).reverse

theorem secretPad_eq (key nonce : Bytes) : secretPad key nonce = Real.Chacha.sOf (block key nonce 0) := by
  rw [secretPad, Real.Chacha.sOf, Real.Chacha.le_eq]

/-- C98, the cipher: for two keys with different secret points there are a ciphertext and a tag that both accept, with contents of choice at
the beginning under one key and after that under the other. -/
theorem C98_keys (key key' nonce w w' : Bytes) (h : secretPoint key nonce ≠ secretPoint key' nonce) :
    ∃ c t d d', c.length ≤ w.length + w'.length + 271 ∧ t.length = 16 ∧ c ≠ [] ∧
      Real.aead.dec key nonce c t = some d ∧ Real.aead.dec key' nonce c t = some d' ∧ w <+: d ∧ w' <+: d'.drop w.length := by
  rw [secretPoint_eq, secretPoint_eq] at h
  obtain ⟨b, hb⟩ : ∃ b, b = Real.Chacha.mixed key key' nonce w w' ++ List.replicate ((16 - (w.length + w'.length) % 16) % 16) 0 := ⟨_, rfl⟩
  have hbl : b.length = w.length + w'.length + (16 - (w.length + w'.length) % 16) % 16 := by
    rw [hb, List.length_append, Real.Chacha.mixed_length, List.length_replicate]
  obtain ⟨c, hc, ht⟩ := Real.Chacha.two_tags key key' nonce b (by omega) h
  refine ⟨b ++ c, Real.Chacha.tag key nonce (b ++ c), _, _, ?_, Real.Chacha.tag_len _ _ _, ?_, (real_dec _ _ _ _ _).mpr ⟨rfl, rfl⟩,
    (real_dec _ _ _ _ _).mpr ⟨ht.symm, rfl⟩, ?_, ?_⟩
  · rw [List.length_append, hbl, hc]
    omega
  · intro e
    have := congrArg List.length e
    rw [List.length_append, hc] at this
    simp at this
  · rw [hb, List.append_assoc]
    exact Real.Chacha.mixed_first _ _ _ _ _ _
  · rw [hb, List.append_assoc]
    exact Real.Chacha.mixed_second _ _ _ _ _ _

/-- C98: for two passwords, salt and nonce there is a blob that opens with both, exactly if the secret points differ or the pads are the
same. -/
theorem C98_exists (salt nonce : Bytes) (hs : salt.length = 32) (hn : nonce.length = 12) (p q : Str) :
    (∃ blob d d', blob.take 44 = salt ++ nonce ∧ decrypt Real.hashes Real.aead blob p = .ok d ∧ decrypt Real.hashes Real.aead blob q = .ok d') ↔
      secretPoint (keyOf Real.hashes p salt) nonce ≠ secretPoint (keyOf Real.hashes q salt) nonce ∨
      secretPad (keyOf Real.hashes p salt) nonce = secretPad (keyOf Real.hashes q salt) nonce := by
  constructor
  · rintro ⟨blob, d, d', hb, h1, h2⟩
    obtain ⟨pa, ea⟩ := open_parts h1
    have e1 : blob.take 32 = salt := by
      have := congrArg (List.take 32) hb
      rwa [List.take_take, List.take_left' hs] at this
    have e2 : (blob.drop 32).take 12 = nonce := by
      have := congrArg (List.drop 32) hb
      rwa [List.drop_take, List.drop_left' hs] at this
    obtain ⟨t1, -⟩ := (real_opens pa ea p d).mp h1
    obtain ⟨t2, -⟩ := (real_opens pa ea q d').mp h2
    rw [e1, e2] at t1 t2
    rw [secretPoint_eq, secretPoint_eq, secretPad_eq, secretPad_eq]
    by_cases h : Real.Chacha.rOf (block (keyOf Real.hashes p salt) nonce 0) = Real.Chacha.rOf (block (keyOf Real.hashes q salt) nonce 0)
    · exact .inr ((Real.Chacha.same_tags _ _ _ _ h).mp (t1.trans t2.symm))
    · exact .inl h
  · intro h
    have fin : ∀ c t d d', c ≠ [] → t.length = 16 → Real.aead.dec (keyOf Real.hashes p salt) nonce c t = some d →
        Real.aead.dec (keyOf Real.hashes q salt) nonce c t = some d' → ∃ blob d d', blob.take 44 = salt ++ nonce ∧
          decrypt Real.hashes Real.aead blob p = .ok d ∧ decrypt Real.hashes Real.aead blob q = .ok d' := by
      intro c t d d' hc ht h1 h2
      have hp : Parts (salt ++ (nonce ++ (t ++ c))) salt nonce t c := ⟨rfl, hs, hn, ht⟩
      refine ⟨_, d, d', ?_, ((C33_outcome _ _ _ _ _ _ _ p hp hc).1 d).mpr h1, ((C33_outcome _ _ _ _ _ _ _ q hp hc).1 d').mpr h2⟩
      rw [← List.append_assoc]
      exact List.take_left' (by rw [List.length_append, hs, hn])
    by_cases hr : secretPoint (keyOf Real.hashes p salt) nonce = secretPoint (keyOf Real.hashes q salt) nonce
    · have hp := h.resolve_left (not_not.mpr hr)
      rw [secretPoint_eq, secretPoint_eq] at hr
      rw [secretPad_eq, secretPad_eq] at hp
      exact fin [0] _ _ _ (by simp) (Real.Chacha.tag_len _ _ _) ((real_dec _ _ _ _ _).mpr ⟨rfl, rfl⟩)
        ((real_dec _ _ _ _ _).mpr ⟨((Real.Chacha.same_tags _ _ _ [0] hr).mpr hp).symm, rfl⟩)
    · obtain ⟨c, t, d, d', -, ht, hc, h1, h2, -⟩ := C98_keys _ _ nonce [] [] hr
      exact fin c t d d' hc ht h1 h2

/-- C98: if the secret points differ, there is one with contents of choice at the beginning under one password, and after that under the
other; it is no longer than these and 331 bytes. -/
theorem C98_chosen (salt nonce : Bytes) (hs : salt.length = 32) (hn : nonce.length = 12) (p q : Str)
    (h : secretPoint (keyOf Real.hashes p salt) nonce ≠ secretPoint (keyOf Real.hashes q salt) nonce) (w w' : Bytes) :
    ∃ blob d d', blob.take 44 = salt ++ nonce ∧ blob.length ≤ w.length + w'.length + 331 ∧
      decrypt Real.hashes Real.aead blob p = .ok d ∧ decrypt Real.hashes Real.aead blob q = .ok d' ∧ w <+: d ∧ w' <+: d'.drop w.length := by
  obtain ⟨c, t, d, d', hl, ht, hc, h1, h2, h3, h4⟩ := C98_keys _ _ nonce w w' h
  have hp : Parts (salt ++ (nonce ++ (t ++ c))) salt nonce t c := ⟨rfl, hs, hn, ht⟩
  refine ⟨_, d, d', ?_, ?_, ((C33_outcome _ _ _ _ _ _ _ p hp hc).1 d).mpr h1, ((C33_outcome _ _ _ _ _ _ _ q hp hc).1 d').mpr h2, h3, h4⟩
  · rw [← List.append_assoc]
    exact List.take_left' (by rw [List.length_append, hs, hn])
  · rw [List.length_append, List.length_append, List.length_append, hs, hn, ht]
    omega

/-- C98: opening tells whoever made such a blob whether the password tried is one of those that it was made for: exactly for the others it
is called wrong. -/
theorem C98_answer (E : Env) (it : Iter (Network × Bytes)) (M : Manager) (blob : Bytes) (hl : 60 < blob.length) (x : Str) :
    Manager.keychainFromData E it M blob x = .err .wrongPassword ↔ ∀ d, decrypt E.H E.A blob x ≠ .ok d := by
  constructor
  · intro h d hd
    have hk : Manager.keychainDataFromBytes E blob x =
        Res.okOr ((Data.Versioned.fromBytes E.D d).bind (Data.Versioned.getData E.D)) .dataError := by
      rw [Manager.keychainDataFromBytes, hd]
      rfl
    rw [Manager.keychainFromData, hk] at h
    cases hv : (Data.Versioned.fromBytes E.D d).bind (Data.Versioned.getData E.D) with
    | none => rw [hv] at h; cases h
    | some v =>
      rw [hv] at h
      change ((List.mapM _ _ : Res Error _) >>= fun keys => Res.ok (Keychain.new keys)) = _ at h
      generalize hm : (List.mapM _ _ : Res Error _) = o at h
      cases o with
      | ok a => cases h
      | panic => cases h
      | err e =>
        obtain ⟨a, -, ha⟩ := Res.mapM_eq_err hm
        cases h
        cases hk : a.2.1.keyFromData a.2.2 <;> rw [hk] at ha <;> cases ha
  · intro h
    have hd : decrypt E.H E.A blob x = .err .decryptionFailed := by
      have h1 := C33_no_panic E.H E.A blob x
      have h2 := C33_not_enough E.H E.A blob x
      cases hx : decrypt E.H E.A blob x with
      | ok d => exact absurd hx (h d)
      | panic => exact absurd hx h1
      | err e =>
        cases e with
        | notEnoughData =>
          have := h2.mp hx
          omega
        | decryptionFailed => rfl
    rw [Manager.keychainFromData, Manager.keychainDataFromBytes, hd]
    rfl

/-- C98: with either password the password of such a blob can be changed, and the new blob has the contents that go with the old one. -/
theorem C98_change (D : Base64.Decoder) (blob : Bytes) (p q : Str) (d d' : Bytes) (h : decrypt Real.hashes Real.aead blob p = .ok d)
    (h' : decrypt Real.hashes Real.aead blob q = .ok d') (new : Str) (r : Rng) (hr : Delivers r) :
    ∃ b b' r1 r1', (Manager.changePassword (realEnv D) blob p new).run r = (.ok b, r1) ∧
      (Manager.changePassword (realEnv D) blob q new).run r = (.ok b', r1') ∧
      decrypt Real.hashes Real.aead b new = .ok d ∧ decrypt Real.hashes Real.aead b' new = .ok d' := by
  have one : ∀ p d, decrypt Real.hashes Real.aead blob p = .ok d → ∃ b r1, (Manager.changePassword (realEnv D) blob p new).run r = (.ok b, r1) ∧
      decrypt Real.hashes Real.aead b new = .ok d := by
    intro p d h
    obtain ⟨b, r1, hb⟩ := ((C42_outcome (realEnv D) blob p new r).1 hr).mp ⟨d, Manager.decrypt_opens.mpr h⟩
    obtain ⟨plain, h1, h2⟩ := C42_reencrypts (realEnv D) Real.aead_correct blob b p new r r1 hb
    have h1 := Manager.decrypt_opens.mp h1
    have h2 := Manager.decrypt_opens.mp h2
    change decrypt Real.hashes Real.aead blob p = .ok plain at h1
    rw [h] at h1
    cases h1
    exact ⟨b, r1, hb, h2⟩
  obtain ⟨b, r1, h1, h2⟩ := one p d h
  obtain ⟨b', r1', h1', h2'⟩ := one q d' h'
  exact ⟨b, b', r1, r1', h1, h1', h2, h2'⟩

/-- C98, a case: the keys of 32 zeros and 32 ones, the nonce of 12 zeros: both open some data, one to a text that begins with "yes", the other
to one with "no" after that. -/
theorem C98_case : ∃ c t d d', Real.aead.dec (List.replicate 32 0) (List.replicate 12 0) c t = some d ∧
    Real.aead.dec (List.replicate 32 1) (List.replicate 12 0) c t = some d' ∧ [121, 101, 115] <+: d ∧ [110, 111] <+: d'.drop 3 ∧ c.length ≤ 276 := by
  have hne : secretPoint (List.replicate 32 0) (List.replicate 12 0) ≠ secretPoint (List.replicate 32 1) (List.replicate 12 0) := by
    decide +kernel
  obtain ⟨c, t, d, d', hl, -, -, h1, h2, h3, h4⟩ := C98_keys _ _ (List.replicate 12 0) [121, 101, 115] [110, 111] hne
  exact ⟨c, t, d, d', h1, h2, h3, h4, hl⟩

end KC.Props
