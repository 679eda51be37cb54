import Verif.Real.Poly1305
import Verif.Props.Real
/-
C66: changed wallets, with ChaCha20-Poly1305 itself.
-/
namespace KC.Props
open KC.Crypt (decrypt encrypt)
open KC.Spec.Crypt
open KC.Real.Chacha (block)
open KC.Spec.Bip32 (be)

/-- The secret point of Poly1305 (RFC 8439, 2.5 and 2.6): the first sixteen bytes of block 0, as a little-endian number, with 22 bits
cleared. -/
def secretPoint (key nonce : Bytes) : Nat := be ((block key nonce 0).take 16).reverse &&& 0x0ffffffc0ffffffc0ffffffc0fffffff

theorem secretPoint_eq (key nonce : Bytes) : secretPoint key nonce = Real.Chacha.rOf (block key nonce 0) := by
  rw [secretPoint, Real.Chacha.rOf, Real.Chacha.le_eq]

theorem real_dec (key nonce c t d : Bytes) :
    Real.aead.dec key nonce c t = some d ↔ Real.Chacha.tag key nonce c = t ∧ d = Real.Chacha.crypt key nonce c := by
  simp only [Real.aead, Real.Chacha.dec]
  split
  · rename_i h
    simp only [Option.some.injEq, h, true_and]
    exact eq_comm
  · rename_i h
    simp [h]

/-- Opening succeeds exactly if the tag is right. -/
theorem real_opens {blob salt nonce tag ct : Bytes} (hp : Parts blob salt nonce tag ct) (hc : ct ≠ []) (password : Str) (d : Bytes) :
    decrypt Real.hashes Real.aead blob password = .ok d ↔
      Real.Chacha.tag (keyOf Real.hashes password salt) nonce ct = tag ∧ d = Real.Chacha.crypt (keyOf Real.hashes password salt) nonce ct := by
  rw [(C33_outcome Real.hashes Real.aead blob salt nonce tag ct password hp hc).1 d, real_dec]

/-- C66: of all tags for salt, nonce and ciphertext, exactly one is accepted under a password. -/
theorem C66_one_tag (salt nonce ct : Bytes) (hs : salt.length = 32) (hn : nonce.length = 12) (hc : ct ≠ []) (password : Str) :
    ∃ tag, tag.length = 16 ∧ ∀ tag', tag'.length = 16 →
      ((∃ d, decrypt Real.hashes Real.aead (salt ++ (nonce ++ (tag' ++ ct))) password = .ok d) ↔ tag' = tag) ∧
      (decrypt Real.hashes Real.aead (salt ++ (nonce ++ (tag' ++ ct))) password = .err .decryptionFailed ↔ tag' ≠ tag) := by
  refine ⟨_, Real.Chacha.tag_len (keyOf Real.hashes password salt) nonce ct, fun tag' h' => ?_⟩
  have hp : Parts (salt ++ (nonce ++ (tag' ++ ct))) salt nonce tag' ct := ⟨rfl, hs, hn, h'⟩
  have h1 := fun d => real_opens hp hc password d
  have h2 := (C33_outcome Real.hashes Real.aead _ salt nonce tag' ct password hp hc).2
  have h3 : (∃ d, decrypt Real.hashes Real.aead (salt ++ (nonce ++ (tag' ++ ct))) password = .ok d) ↔
      tag' = Real.Chacha.tag (keyOf Real.hashes password salt) nonce ct := by
    constructor
    · rintro ⟨d, h⟩
      exact ((h1 d).mp h).1.symm
    · intro h
      exact ⟨_, (h1 _).mpr ⟨h.symm, rfl⟩⟩
  refine ⟨h3, ?_⟩
  rw [Ne, ← h3, h2]
  constructor
  · rintro h ⟨d, hd⟩
    rw [((C33_outcome Real.hashes Real.aead _ salt nonce tag' ct password hp hc).1 d).mp hd] at h
    cases h
  · intro h
    cases hh : Real.aead.dec (keyOf Real.hashes password salt) nonce ct tag' with
    | none => rfl
    | some d => exact absurd ⟨d, ((C33_outcome Real.hashes Real.aead _ salt nonce tag' ct password hp hc).1 d).mpr hh⟩ h

/-- C66: a wallet and a changed one, with the same salt and nonce, both open with the same password only if the secret point, which
password, salt and nonce determine, is one of a few that the two blobs determine. -/
theorem C66_forgery (blob blob' salt nonce tag tag' ct ct' : Bytes) (hp : Parts blob salt nonce tag ct)
    (hp' : Parts blob' salt nonce tag' ct') (hne : blob ≠ blob') :
    ∃ bad : Finset Nat, bad.card ≤ 8 * ((max ct.length ct'.length + 15) / 16 + 1) ∧
      ∀ password d d', decrypt Real.hashes Real.aead blob password = .ok d → decrypt Real.hashes Real.aead blob' password = .ok d' →
        secretPoint (keyOf Real.hashes password salt) nonce ∈ bad := by
  refine ⟨Real.Chacha.bad (Real.Chacha.macData ct) (Real.Chacha.macData ct') tag tag', ?_, fun password d d' h h' => ?_⟩
  · refine (Real.Chacha.card_bad _ _ _ _).trans (Nat.mul_le_mul_left _ ?_)
    rw [Real.Chacha.blocks_macData, Real.Chacha.blocks_macData]
    omega
  have ne : ∀ {b s n t c e}, Parts b s n t c → decrypt Real.hashes Real.aead b password = .ok e → c ≠ [] := by
    rintro b s n t c e hp h rfl
    have := C33_length Real.hashes Real.aead b e password h
    rw [hp.eq] at this
    simp only [List.length_append, hp.salt_len, hp.nonce_len, hp.tag_len, List.length_nil] at this
    exact this.2 (List.eq_nil_of_length_eq_zero (by omega))
  obtain ⟨h1, -⟩ := (real_opens hp (ne hp h) password d).mp h
  obtain ⟨h2, -⟩ := (real_opens hp' (ne hp' h') password d').mp h'
  generalize keyOf Real.hashes password salt = key at h1 h2 ⊢
  have hct : ct ≠ ct' := by
    intro e
    rw [← e] at h2
    rw [hp.eq, hp'.eq, ← e, ← h1, ← h2] at hne
    exact hne rfl
  have := Real.Chacha.tag_forgery hct key nonce
  rw [h1, h2] at this
  rw [secretPoint_eq]
  exact this

/-! The secret point is one of 2^106. -/

/-- The number of ones among the lowest `n` bits. -/
def ones : Nat → Nat → Nat
  | 0, _ => 0
  | n + 1, m => m % 2 + ones n (m / 2)

theorem card_masked (n m : Nat) : ((Finset.range (2 ^ n)).image (· &&& m)).card = 2 ^ ones n m := by
  induction n generalizing m with
  | zero => simp [ones]
  | succ n ih =>
    have key : ∀ x, x &&& m = 2 * (x / 2 &&& m / 2) + (x % 2) * (m % 2) := by
      intro x
      have h1 : (x &&& m) / 2 = x / 2 &&& m / 2 := Nat.and_div_two
      have h2 : (x &&& m) % 2 = (x % 2) * (m % 2) := by
        have := Nat.and_mod_two_pow (a := x) (b := m) (n := 1)
        rw [pow_one] at this
        rw [this]
        rcases Nat.mod_two_eq_zero_or_one x with a | a <;> rcases Nat.mod_two_eq_zero_or_one m with b | b <;> rw [a, b] <;> rfl
      omega
    have step : (Finset.range (2 ^ (n + 1))).image (· &&& m) =
        (((Finset.range (2 ^ n)).image (· &&& m / 2)) ×ˢ Finset.range (m % 2 + 1)).image fun p => 2 * p.1 + p.2 := by
      ext y
      simp only [Finset.mem_image, Finset.mem_range, Finset.mem_product, Prod.exists]
      constructor
      · rintro ⟨x, hx, rfl⟩
        refine ⟨x / 2 &&& m / 2, (x % 2) * (m % 2), ⟨⟨x / 2, ?_, rfl⟩, ?_⟩, (key x).symm⟩
        · rw [pow_succ] at hx; omega
        · rcases Nat.mod_two_eq_zero_or_one x with a | a <;> rw [a] <;> omega
      · rintro ⟨a, b, ⟨⟨x, hx, rfl⟩, hb⟩, rfl⟩
        refine ⟨2 * x + b, ?_, ?_⟩
        · rw [pow_succ]; omega
        · rw [key, show (2 * x + b) / 2 = x by omega]
          have : b = 0 ∨ (b = 1 ∧ m % 2 = 1) := by omega
          rcases this with rfl | ⟨rfl, e⟩
          · simp
          · rw [e]; omega
    rw [step, Finset.card_image_of_injOn, Finset.card_product, ih, Finset.card_range, ones, pow_add]
    · rcases Nat.mod_two_eq_zero_or_one m with e | e <;> rw [e] <;> omega
    · rintro ⟨a, b⟩ h ⟨a', b'⟩ h' e
      simp only [Finset.coe_product, Set.mem_prod, Finset.mem_coe, Finset.mem_range] at h h' e
      simp only [Prod.mk.injEq]
      omega

/-- C66: there are 2^106 secret points. -/
theorem C66_points : (((Finset.range (2 ^ 128)).image (· &&& 0x0ffffffc0ffffffc0ffffffc0fffffff)).card = 2 ^ 106) ∧
    ∀ key nonce, secretPoint key nonce ∈ (Finset.range (2 ^ 128)).image (· &&& 0x0ffffffc0ffffffc0ffffffc0fffffff) := by
  refine ⟨?_, fun key nonce => ?_⟩
  · rw [card_masked]
    exact congrArg (2 ^ ·) (by decide +kernel)
  · rw [secretPoint, Finset.mem_image]
    generalize block key nonce 0 = b
    refine ⟨be (b.take 16).reverse, ?_, rfl⟩
    rw [Finset.mem_range]
    refine lt_of_lt_of_le (Bytes.be_lt _) ?_
    rw [List.length_reverse, List.length_take]
    exact (Nat.pow_le_pow_right (by decide) (Nat.min_le_left 16 _)).trans (by decide +kernel)

theorem stream_prefix (key nonce : Bytes) (k : Nat) {n m : Nat} (h : n ≤ m) :
    Real.Chacha.stream key nonce k n <+: Real.Chacha.stream key nonce k m := by
  obtain ⟨j, rfl⟩ := Nat.exists_eq_add_of_le h
  rw [Real.Chacha.stream, Real.Chacha.stream, List.range_add, List.flatMap_append]
  exact List.prefix_append _ _

/-- Byte `i` of the cipher's output is that of the input xor that of the key stream. -/
theorem crypt_getD (key nonce b : Bytes) (n i : Nat) (hi : i < b.length) (hn : (b.length + 63) / 64 ≤ n) :
    (Real.Chacha.crypt key nonce b).getD i 0 = b.getD i 0 ^^^ (Real.Chacha.stream key nonce 1 n).getD i 0 := by
  obtain ⟨t, ht⟩ := stream_prefix key nonce 1 hn
  have hl := Real.Chacha.stream_len key nonce 1 ((b.length + 63) / 64)
  rw [← ht, Real.Chacha.crypt]
  generalize Real.Chacha.stream key nonce 1 ((b.length + 63) / 64) = s at hl ⊢
  have hs : i < s.length := by omega
  rw [List.getD_eq_getElem?_getD, List.getD_eq_getElem?_getD, List.getD_eq_getElem?_getD, List.getElem?_append_left hs,
    List.getElem?_zipWith, List.getElem?_eq_getElem hs, List.getElem?_eq_getElem hi]
  rfl

/-- C66: if both open, the data differ exactly where the ciphertexts differ. -/
theorem C66_key_stream (blob blob' salt nonce tag tag' ct ct' : Bytes) (hp : Parts blob salt nonce tag ct)
    (hp' : Parts blob' salt nonce tag' ct') (password : Str) (d d' : Bytes)
    (h : decrypt Real.hashes Real.aead blob password = .ok d) (h' : decrypt Real.hashes Real.aead blob' password = .ok d')
    (i : Nat) (hi : i < ct.length) (hi' : i < ct'.length) :
    d.getD i 0 ^^^ d'.getD i 0 = ct.getD i 0 ^^^ ct'.getD i 0 := by
  obtain ⟨-, e⟩ := (real_opens hp (List.ne_nil_of_length_pos (by omega)) password d).mp h
  obtain ⟨-, e'⟩ := (real_opens hp' (List.ne_nil_of_length_pos (by omega)) password d').mp h'
  generalize keyOf Real.hashes password salt = key at e e'
  have g := crypt_getD key nonce ct (max ((ct.length + 63) / 64) ((ct'.length + 63) / 64)) i hi (le_max_left _ _)
  have g' := crypt_getD key nonce ct' (max ((ct.length + 63) / 64) ((ct'.length + 63) / 64)) i hi' (le_max_right _ _)
  rw [← e] at g
  rw [← e'] at g'
  rw [g, g']
  generalize (Real.Chacha.stream key nonce 1 (max ((ct.length + 63) / 64) ((ct'.length + 63) / 64))).getD i 0 = s
  rw [UInt8.xor_assoc, UInt8.xor_comm s, UInt8.xor_assoc, UInt8.xor_self, UInt8.xor_zero]

/-- C66, on a wallet just made: with any other tag it does not open. -/
theorem C66_changed_tag {ε} (data : Bytes) (hd : data ≠ []) (password : Str) (r r' : Rng) (blob : Bytes)
    (h : (encrypt Real.hashes Real.aead data password : RM ε Bytes).run r = (.ok blob, r')) (i : Nat) (hi : 44 ≤ i) (hi' : i < 60)
    (b : UInt8) (hb : b ≠ blob.getD i 0) :
    decrypt Real.hashes Real.aead (blob.set i b) password = .err .decryptionFailed := by
  obtain ⟨h1, h2⟩ := C57_crypt data hd password r r' blob h
  obtain ⟨salt, nonce, tag, ct, hp, hc⟩ := (C33_parts blob).1.mp (by
    have := List.length_pos_iff.mpr hd
    omega)
  have hlen : (salt ++ nonce).length = 44 := by rw [List.length_append, hp.salt_len, hp.nonce_len]
  have hset : blob.set i b = salt ++ (nonce ++ (tag.set (i - 44) b ++ ct)) := by
    rw [hp.eq, ← List.append_assoc, List.set_append_right _ _ (by omega), hlen,
      List.set_append_left _ _ (by rw [hp.tag_len]; omega), List.append_assoc]
  have hget : blob.getD i 0 = tag.getD (i - 44) 0 := by
    rw [List.getD_eq_getElem?_getD, List.getD_eq_getElem?_getD, hp.eq, ← List.append_assoc, List.getElem?_append_right (by omega), hlen,
      List.getElem?_append_left (by rw [hp.tag_len]; omega)]
  obtain ⟨t, -, ht⟩ := C66_one_tag salt nonce ct hp.salt_len hp.nonce_len hc password
  have htag : tag = t := ((ht tag hp.tag_len).1).mp ⟨data, by rw [← hp.eq]; exact h1⟩
  rw [hset, (ht (tag.set (i - 44) b) (by rw [List.length_set]; exact hp.tag_len)).2, ← htag]
  intro e
  apply hb
  rw [hget, ← e, List.getD_eq_getElem?_getD, List.getElem?_set_self (by rw [hp.tag_len]; omega)]
  rfl

/-! Concrete cases. -/

/-- An encryption of two bytes opens, and does not with another first byte of the tag. -/
example : ∃ (blob : Bytes) (r' : Rng), (encrypt Real.hashes Real.aead [7, 8] ['a'] : RM Unit Bytes).run
    ⟨fun i => UInt8.ofNat i, fun _ => false, 0, 0, false⟩ = (.ok blob, r') ∧
    decrypt Real.hashes Real.aead blob ['a'] = .ok [7, 8] ∧
    decrypt Real.hashes Real.aead (blob.set 44 (blob.getD 44 0 + 1)) ['a'] = .err .decryptionFailed := by
  obtain ⟨blob, r', h⟩ : ∃ (blob : Bytes) (r' : Rng), (encrypt Real.hashes Real.aead [7, 8] ['a'] : RM Unit Bytes).run
      ⟨fun i => UInt8.ofNat i, fun _ => false, 0, 0, false⟩ = (.ok blob, r') := by
    rw [KC.Crypt.encrypt_eq]
    exact ⟨_, _, rfl⟩
  refine ⟨blob, r', h, (C57_crypt [7, 8] (by decide) _ _ _ _ h).1, C66_changed_tag [7, 8] (by decide) _ _ _ _ h 44 (by decide) (by decide) _ ?_⟩
  generalize blob.getD 44 0 = b
  intro e
  have := congrArg UInt8.toNat e
  rw [UInt8.toNat_add] at this
  have := b.toNat_lt
  simp at *

/-- Two blobs of 93 bytes: if both open with the empty password, the point is one of at most 32. -/
example (t t' : Bytes) (ht : t.length = 16) (ht' : t'.length = 16) :
    ∃ bad : Finset Nat, bad.card ≤ 32 ∧ ∀ d d',
      decrypt Real.hashes Real.aead (List.replicate 32 1 ++ (List.replicate 12 2 ++ (t ++ List.replicate 33 3))) [] = .ok d →
      decrypt Real.hashes Real.aead (List.replicate 32 1 ++ (List.replicate 12 2 ++ (t' ++ List.replicate 33 4))) [] = .ok d' →
      secretPoint (keyOf Real.hashes [] (List.replicate 32 1)) (List.replicate 12 2) ∈ bad := by
  obtain ⟨bad, h1, h2⟩ := C66_forgery _ _ (List.replicate 32 1) (List.replicate 12 2) t t' (List.replicate 33 3) (List.replicate 33 4) ⟨rfl, List.length_replicate, List.length_replicate, ht⟩
    ⟨rfl, List.length_replicate, List.length_replicate, ht'⟩ (by
      intro e
      have := List.append_inj_right' e (by simp [ht, ht'])
      have := List.append_inj_right' this (by simp [ht, ht'])
      have := List.append_inj_right' this (by simp)
      exact absurd this (by decide))
  exact ⟨bad, h1, fun d d' => h2 [] d d'⟩

end KC.Props
