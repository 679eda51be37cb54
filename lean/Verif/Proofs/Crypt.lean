import Verif.Model.Crypt
import Verif.Spec.Crypt
import Verif.Proofs.Secp
/-
Lemmas about `encrypt`, `decrypt`.
-/
namespace KC.Crypt
open KC.Spec.Crypt KC.Bytes

theorem fill_ok {r r' : Rng} {n : Nat} {b : Bytes} (h : r.fill n = (some b, r')) :
    r.poisoned = false ∧ r.fails r.calls = false ∧ b = seg r.stream r.pos n ∧
    r' = { r with pos := r.pos + n, calls := r.calls + 1 } := by
  unfold Rng.fill at h
  split at h
  · cases h
  · split at h
    · cases h
    · rename_i h1 h2
      simp only [Prod.mk.injEq, Option.some.injEq] at h
      exact ⟨by simpa using h1, by simpa using h2, h.1.symm, h.2.symm⟩

theorem fill_healthy {r : Rng} (n : Nat) (hp : r.poisoned = false) (hf : r.fails r.calls = false) :
    r.fill n = (some (seg r.stream r.pos n), { r with pos := r.pos + n, calls := r.calls + 1 }) := by
  simp [Rng.fill, hp, hf, seg]

@[simp] theorem seg_length (s : Nat → UInt8) (p n : Nat) : (seg s p n).length = n := by simp [seg]

/-- The blob for given salt and nonce. -/
def sealed (P : Hashes) (A : Aead) (data : Bytes) (password : Str) (salt nonce : Bytes) : Bytes :=
  salt ++ (nonce ++ ((A.enc (keyOf P password salt) nonce data).2 ++ (A.enc (keyOf P password salt) nonce data).1))

theorem encrypt_eq {ε} (P : Hashes) (A : Aead) (data : Bytes) (password : Str) :
    (encrypt P A data password : RM ε Bytes) =
      .draw 32 fun salt => .draw 12 fun nonce => .ret (.ok (sealed P A data password salt nonce)) := by
  unfold encrypt sealed
  simp only [List.append_assoc]
  rfl

theorem sealed_parts (P : Hashes) (A : Aead) (data : Bytes) (password : Str) (salt nonce : Bytes)
    (hs : salt.length = 32) (hn : nonce.length = 12) :
    Parts (sealed P A data password salt nonce) salt nonce (A.enc (keyOf P password salt) nonce data).2
      (A.enc (keyOf P password salt) nonce data).1 :=
  ⟨rfl, hs, hn, A.tag_len _ _ _⟩

theorem decrypt_short (P : Hashes) (A : Aead) (blob : Bytes) (password : Str) (h : blob.length ≤ 60) :
    decrypt P A blob password = .err .notEnoughData := if_pos h

theorem decrypt_parts (P : Hashes) (A : Aead) {blob salt nonce tag ct : Bytes} (password : Str)
    (h : Parts blob salt nonce tag ct) (hc : ct ≠ []) :
    decrypt P A blob password = match A.dec (keyOf P password salt) nonce ct tag with
      | some d => .ok d
      | none => .err .decryptionFailed := by
  obtain ⟨rfl, h1, h2, h3⟩ := h
  have hl : 0 < ct.length := List.length_pos_iff.mpr hc
  have s1 : slice (salt ++ (nonce ++ (tag ++ ct))) saltStart saltEnd = some salt := by
    have := slice_append [] salt (nonce ++ (tag ++ ct)) (i := saltStart) (j := saltEnd) rfl (by rw [h1]; rfl)
    simpa using this
  have s2 : slice (salt ++ (nonce ++ (tag ++ ct))) nonceStart nonceEnd = some nonce := by
    have := slice_append salt nonce (tag ++ ct) (i := nonceStart) (j := nonceEnd) (by rw [h1]; rfl) (by rw [h2]; rfl)
    simpa using this
  have s3 : slice (salt ++ (nonce ++ (tag ++ ct))) tagStart tagEnd = some tag := by
    have := slice_append (salt ++ nonce) tag ct (i := tagStart) (j := tagEnd) (by simp [h1, h2]; rfl) (by rw [h3]; rfl)
    simpa using this
  have s4 : slice (salt ++ (nonce ++ (tag ++ ct))) encryptedStart (salt ++ (nonce ++ (tag ++ ct))).length = some ct := by
    have := slice_append (salt ++ nonce ++ tag) ct [] (i := encryptedStart)
      (j := (salt ++ (nonce ++ (tag ++ ct))).length) (by simp [h1, h2, h3]; rfl)
      (by simp only [List.length_append, h1, h2, h3]; show 60 + _ = _; omega)
    simpa using this
  unfold decrypt
  rw [if_neg (by simp only [List.length_append, h1, h2, h3]; show ¬ _ ≤ 60; omega), s1, s2, s3, s4]
  rfl

theorem parts_exist (blob : Bytes) (h : 60 < blob.length) :
    ∃ salt nonce tag ct, Parts blob salt nonce tag ct ∧ ct ≠ [] := by
  obtain ⟨salt, r1, rfl, h1, h2⟩ := Secp.split_at blob 32 (blob.length - 32) (by omega)
  obtain ⟨nonce, r2, rfl, h3, h4⟩ := Secp.split_at r1 12 (r1.length - 12) (by simp at h; omega)
  obtain ⟨tag, ct, rfl, h5, h6⟩ := Secp.split_at r2 16 (r2.length - 16) (by simp at h; omega)
  refine ⟨salt, nonce, tag, ct, ⟨rfl, h1, h3, h5⟩, ?_⟩
  rintro rfl
  simp at h; omega

theorem parts_unique {blob s n t c s' n' t' c' : Bytes} (h : Parts blob s n t c) (h' : Parts blob s' n' t' c') :
    s = s' ∧ n = n' ∧ t = t' ∧ c = c' := by
  have e := h.eq.symm.trans h'.eq
  obtain ⟨e1, e⟩ := List.append_inj e (h.salt_len.trans h'.salt_len.symm)
  obtain ⟨e2, e⟩ := List.append_inj e (h.nonce_len.trans h'.nonce_len.symm)
  obtain ⟨e3, e⟩ := List.append_inj e (h.tag_len.trans h'.tag_len.symm)
  exact ⟨e1, e2, e3, e⟩

end KC.Crypt
