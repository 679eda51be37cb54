import Verif.Spec.Passwords
import Verif.Proofs.Crypt
import Verif.Proofs.Json
import Verif.Proofs.Toy
import Verif.Real.Hashes
/-
Lemmas about passwords as keys of PBKDF2.
-/
namespace KC.Passwords
open KC.Spec.Passwords KC.Spec.Crypt

theorem utf8_inj {p q : Str} (h : Str.utf8 p = Str.utf8 q) : p = q := by
  have := Json.ofUtf8_utf8 p
  rw [h, Json.ofUtf8_utf8] at this
  exact (Option.some.inj this).symm

/-- The first byte of a character. -/
theorem utf8_head (c : Char) : ∃ b t, String.utf8EncodeChar c = b :: t ∧ (b.toNat < 128 ∨ 192 ≤ b.toNat ∧ b.toNat < 248) := by
  by_cases h : c.toNat < 128
  · exact ⟨_, _, utf8_ascii c h, .inl (by rw [UInt8.toNat_ofNat']; omega)⟩
  · have h1 : ¬ c.val.toNat ≤ 0x7f := by have : c.val.toNat = c.toNat := rfl; omega
    simp only [String.utf8EncodeChar, h1, if_false]
    split
    · exact ⟨_, _, rfl, .inr (by rw [UInt8.toNat_ofNat']; omega)⟩
    · split
      · exact ⟨_, _, rfl, .inr (by rw [UInt8.toNat_ofNat']; omega)⟩
      · exact ⟨_, _, rfl, .inr (by rw [UInt8.toNat_ofNat']; omega)⟩

/-- No text begins with a byte from 128 to 191 or from 248 on. -/
theorem utf8_start (s : Str) (b : UInt8) (t : Bytes) (hb : 128 ≤ b.toNat ∧ b.toNat < 192 ∨ 248 ≤ b.toNat) : Str.utf8 s ≠ b :: t := by
  intro h
  cases s with
  | nil => cases h
  | cons c s =>
    obtain ⟨b', t', h', hc⟩ := utf8_head c
    rw [Str.utf8_cons, h', List.cons_append, List.cons.injEq] at h
    rw [h.1] at hc
    omega

theorem utf8_replicate (k : Nat) : Str.utf8 (List.replicate k '\x00') = List.replicate k 0 := by
  induction k with
  | zero => rfl
  | succ k ih => rw [List.replicate_succ, Str.utf8_cons, ih]; rfl

/-! ### Passwords with the same block -/

theorem block_length {h : Bytes → Bytes} (hl : ∀ b, (h b).length = 64) (k : Bytes) : (block h k).length = 128 := by
  unfold block
  simp only [List.length_append, List.length_replicate]
  split
  · rw [hl]
  · omega

theorem hmac_congr {h : Bytes → Bytes} {k k' : Bytes} (e : block h k = block h k') (m : Bytes) : hmac h k m = hmac h k' m := by
  rw [hmac, hmac, e]

theorem U_congr {h : Bytes → Bytes} {p q : Bytes} (e : block h p = block h q) (s : Bytes) (j : Nat) : U h p s j = U h q s j := by
  induction j with
  | zero => exact hmac_congr e _
  | succ j ih => rw [U, U, ih, hmac_congr e]

theorem T_congr {h : Bytes → Bytes} {p q : Bytes} (e : block h p = block h q) (s : Bytes) (c : Nat) : T h p s c = T h q s c := by
  induction c with
  | zero => exact U_congr e s 0
  | succ c ih => rw [T, T, ih, U_congr e]

theorem keyOf_congr {h : Bytes → Bytes} {H : Hashes} (hR : Rfc h H) {p q : Str} (e : block h (Str.utf8 p) = block h (Str.utf8 q))
    (s : Bytes) : keyOf H p s = keyOf H q s := by
  rw [keyOf, keyOf, hR.key, hR.key, T_congr e]

/-- Filling up with zeros, as long as there is place. -/
theorem block_padded (h : Bytes → Bytes) (p : Str) (k : Nat) (hk : Str.len (p ++ List.replicate k '\x00') ≤ 128) :
    block h (Str.utf8 p) = block h (Str.utf8 (p ++ List.replicate k '\x00')) := by
  rw [Str.len] at hk
  unfold block
  rw [Str.utf8_append, utf8_replicate] at hk ⊢
  rw [List.length_append, List.length_replicate] at hk
  rw [if_neg (by omega), if_neg (by rw [List.length_append, List.length_replicate]; omega)]
  simp only [List.length_append, List.length_replicate, List.append_assoc, List.replicate_append_replicate]
  congr 2
  omega

/-- A long password is the same as its hash. -/
theorem block_long (h : Bytes → Bytes) (hl : ∀ b, (h b).length = 64) (p q : Str) (hp : 128 < Str.len p) (hq : Str.utf8 q = h (Str.utf8 p)) :
    block h (Str.utf8 p) = block h (Str.utf8 q) := by
  rw [Str.len] at hp
  unfold block
  rw [if_pos hp, hq, if_neg (by rw [hl]; omega)]

/-! ### Other passwords are told apart -/

/-- The salt with the number of the first block. -/
def first (s : Bytes) : Bytes := s ++ [0, 0, 0, 1]

/-- A hash that shows whether the block of the key is `P` and the salt is `s`. -/
def probe (up P s x : Bytes) : Bytes :=
  if 128 < x.length ∧ x = up then 0xA3 :: List.replicate 63 0
  else if x = P.map (· ^^^ 0x5c) ++ List.replicate 64 0xff then List.replicate 64 0xff
  else if x = P.map (· ^^^ 0x36) ++ first s then List.replicate 64 0xff
  else List.replicate 64 0

theorem probe_length (up P s x : Bytes) : (probe up P s x).length = 64 := by
  unfold probe
  split
  · simp
  · split
    · simp
    · split <;> simp

/-- The results of a probe. -/
theorem probe_last (up P s x : Bytes) : probe up P s x ≠ first t := by
  have hl : (first t).getLast? = some 1 := by simp [first]
  intro h
  rw [← h] at hl
  unfold probe at hl
  revert hl
  split
  · decide
  · split
    · decide
    · split <;> decide

theorem map_xor_inj (k : UInt8) {a b : Bytes} (h : a.map (· ^^^ k) = b.map (· ^^^ k)) : a = b := by
  refine (List.map_inj_right ?_).mp h
  intro x y hxy
  have : x ^^^ k ^^^ k = y ^^^ k ^^^ k := by rw [show x ^^^ k = y ^^^ k from hxy]
  rwa [UInt8.xor_assoc, UInt8.xor_assoc, UInt8.xor_self, UInt8.xor_zero, UInt8.xor_zero] at this

theorem pads_ne {P : Bytes} (hP : P.length = 128) : P.map (· ^^^ 0x36) ≠ P.map (· ^^^ 0x5c) := by
  intro h
  cases P with
  | nil => cases hP
  | cons a P =>
    rw [List.map_cons, List.map_cons, List.cons.injEq] at h
    have : a ^^^ (a ^^^ 0x36) = a ^^^ (a ^^^ 0x5c) := by rw [h.1]
    rw [← UInt8.xor_assoc, ← UInt8.xor_assoc, UInt8.xor_self, UInt8.zero_xor, UInt8.zero_xor] at this
    exact absurd this (by decide)

theorem ones_ne : List.replicate 64 (0 : UInt8) ≠ List.replicate 64 0xff := by decide

theorem ones_first (s : Bytes) : List.replicate 64 0xff ≠ first s := by
  intro h
  have h := congrArg List.getLast? h
  simp [first] at h

theorem zeros_first (s : Bytes) : List.replicate 64 0 ≠ first s := by
  intro h
  have h := congrArg List.getLast? h
  simp [first] at h

/-- The key of the password with block `P` is full of ones. -/
theorem T_self {up P s : Bytes} (hP : block (probe up P s) up = P)
    (h1 : ∀ t, 128 < (P.map (· ^^^ 0x5c) ++ t).length → P.map (· ^^^ 0x5c) ++ t ≠ up)
    (h2 : ∀ t, 128 < (P.map (· ^^^ 0x36) ++ t).length → P.map (· ^^^ 0x36) ++ t ≠ up) (c : Nat) :
    T (probe up P s) up s c = List.replicate 64 0xff := by
  have hl : P.length = 128 := by rw [← hP]; exact block_length (probe_length up P s) up
  have hin : probe up P s (P.map (· ^^^ 0x36) ++ first s) = List.replicate 64 0xff := by
    unfold probe
    rw [if_neg (fun h => h2 _ h.1 h.2), if_neg (fun h => pads_ne hl (List.append_inj h (by simp)).1), if_pos rfl]
  have hin' : ∀ m, m ≠ first s → probe up P s (P.map (· ^^^ 0x36) ++ m) = List.replicate 64 0 := by
    intro m hm
    unfold probe
    rw [if_neg (fun h => h2 m h.1 h.2), if_neg (fun h => pads_ne hl (List.append_inj h (by simp)).1),
      if_neg (fun h => hm (List.append_cancel_left h))]
  have hout : probe up P s (P.map (· ^^^ 0x5c) ++ List.replicate 64 0xff) = List.replicate 64 0xff := by
    unfold probe
    rw [if_neg (fun h => h1 _ h.1 h.2), if_pos rfl]
  have hout' : probe up P s (P.map (· ^^^ 0x5c) ++ List.replicate 64 0) = List.replicate 64 0 := by
    unfold probe
    rw [if_neg (fun h => h1 _ h.1 h.2), if_neg (fun h => ones_ne (List.append_cancel_left h)),
      if_neg (fun h => pads_ne hl (List.append_inj h (by simp)).1.symm)]
  have hU0 : U (probe up P s) up s 0 = List.replicate 64 0xff := by
    rw [U, hmac, hP, ← first, hin, hout]
  have hU : ∀ j, U (probe up P s) up s (j + 1) = List.replicate 64 0 := by
    intro j
    have hne : U (probe up P s) up s j ≠ first s := by cases j <;> exact probe_last _ _ _ _
    rw [U, hmac, hP, hin' _ hne, hout']
  induction c with
  | zero => exact hU0
  | succ c ih => rw [T, ih, hU]; rfl

/-- The key of a password with another block, or with another salt, has a zero in second place. -/
theorem T_other {up P s uq t : Bytes} (hl : P.length = 128) (hQ : block (probe up P s) uq ≠ P ∨
      t ≠ s ∧ block (probe up P s) uq = P ∧ ∀ t, 128 < (P.map (· ^^^ 0x36) ++ t).length → P.map (· ^^^ 0x36) ++ t ≠ up) (c : Nat) :
    (T (probe up P s) uq t c).length = 64 ∧ (T (probe up P s) uq t c)[1]? = some 0 := by
  have hq := block_length (probe_length up P s) uq
  have hout : ∀ m, (t ≠ s → m ≠ first s) → (probe up P s ((block (probe up P s) uq).map (· ^^^ 0x5c) ++ probe up P s
      ((block (probe up P s) uq).map (· ^^^ 0x36) ++ m)))[1]? = some 0 := by
    intro m hm
    have hlast := fun x => probe_last (t := s) up P s x
    have hz : t ≠ s → block (probe up P s) uq = P → (∀ t, 128 < (P.map (· ^^^ 0x36) ++ t).length → P.map (· ^^^ 0x36) ++ t ≠ up) →
        probe up P s ((block (probe up P s) uq).map (· ^^^ 0x36) ++ m) = List.replicate 64 0 := by
      intro ht e h2
      rw [e]
      unfold probe
      rw [if_neg (fun h => h2 m h.1 h.2), if_neg (fun h => pads_ne hl (List.append_inj h (by simp)).1),
        if_neg (fun h => hm ht (List.append_cancel_left h))]
    generalize hin : probe up P s ((block (probe up P s) uq).map (· ^^^ 0x36) ++ m) = i at hz
    have hi : i ≠ first s := by rw [← hin]; exact hlast _
    have hil : i.length = 64 := by rw [← hin]; exact probe_length ..
    generalize block (probe up P s) uq = Q at hQ hq hz
    unfold probe
    split
    · rfl
    · rw [if_neg, if_neg]
      · rfl
      · intro h
        have := List.append_inj h (by simp [hq, hl])
        exact hi this.2
      · intro h
        have := List.append_inj h (by simp [hq, hl])
        rcases hQ with hQ | ⟨ht, hQ, h2⟩
        · exact hQ (map_xor_inj _ this.1)
        · rw [hz ht hQ h2] at this
          exact ones_ne this.2
  have hU : ∀ j, (U (probe up P s) uq t j).length = 64 ∧ (U (probe up P s) uq t j)[1]? = some 0 := by
    intro j
    cases j with
    | zero => exact ⟨probe_length .., hout (first t) fun ht h => ht (List.append_cancel_right h)⟩
    | succ j =>
      have hne : U (probe up P s) uq t j ≠ first s := by cases j <;> exact probe_last _ _ _ _
      exact ⟨probe_length .., hout _ fun _ => hne⟩
  induction c with
  | zero => exact hU 0
  | succ c ih =>
    rw [T]
    refine ⟨by rw [List.length_zipWith, ih.1, (hU _).1]; rfl, ?_⟩
    rw [List.getElem?_zipWith, ih.2, (hU _).2]
    rfl

theorem T_length {h : Bytes → Bytes} (hl : ∀ b, (h b).length = 64) (p s : Bytes) (c : Nat) : (T h p s c).length = 64 := by
  have hU : ∀ j, (U h p s j).length = 64 := fun j => by cases j <;> exact hl _
  induction c with
  | zero => exact hU 0
  | succ c ih => rw [T, List.length_zipWith, ih, hU]; rfl

/-- Hash functions whose keys are made with `h`. -/
def over (h : Bytes → Bytes) : Hashes :=
  { Toy.hashes with
    pbkdf2 := fun p s c n => Toy.pad n (T h p s (c - 1))
    pbkdf2_len := fun _ _ _ n => Toy.pad_len n _ }

theorem over_pbkdf2 (h : Bytes → Bytes) (p s : Bytes) (c n : Nat) : (over h).pbkdf2 p s c n = Toy.pad n (T h p s (c - 1)) := rfl

theorem over_rfc {h : Bytes → Bytes} (hl : ∀ b, (h b).length = 64) : Rfc h (over h) := by
  refine ⟨hl, fun p s => ?_⟩
  have e : 19162 - 1 = 19161 := by omega
  rw [over_pbkdf2, e, Toy.pad, List.take_append_of_le_length (by rw [T_length hl]; omega)]

theorem over_seeds {h : Bytes → Bytes} (hl : ∀ b, (h b).length = 64) : RfcSeeds h (over h) := by
  refine ⟨hl, fun p s => ?_⟩
  have e : 2048 - 1 = 2047 := by omega
  rw [over_pbkdf2, e, Toy.pad, List.take_left' (T_length hl p s _)]

/-- A cipher that opens everything, with one key only. -/
def only (key : Bytes) : Aead where
  enc _ _ p := (p, List.replicate 16 0)
  enc_len _ _ _ := rfl
  tag_len _ _ _ := by simp
  dec k _ c _ := if k = key then some c else none
  dec_len k n c t p h := by
    split at h
    · cases h; rfl
    · cases h

/-- Keys of passwords that open the same are the same. -/
theorem keyOf_of_same {p q : Str} (h : Same p q) {f : Bytes → Bytes} {H : Hashes} (hR : Rfc f H) (salt : Bytes) (hs : salt.length = 32) :
    keyOf H p salt = keyOf H q salt := by
  have hp : Parts (salt ++ (List.replicate 12 0 ++ (List.replicate 16 0 ++ [0]))) salt (List.replicate 12 0) (List.replicate 16 0) [0] :=
    ⟨rfl, hs, by simp, by simp⟩
  have e := h f H (only (keyOf H p salt)) (salt ++ (List.replicate 12 0 ++ (List.replicate 16 0 ++ [0]))) hR
  rw [Crypt.decrypt_parts H _ p hp (by simp), Crypt.decrypt_parts H _ q hp (by simp)] at e
  simp only [only, if_true] at e
  by_contra hc
  rw [if_neg (fun h => hc h.symm)] at e
  cases e

/-- Some hash tells the keys of password `p` with salt `s` and of `q` with `t` apart. -/
def Told (p : Str) (s : Bytes) (q : Str) (t : Bytes) : Prop :=
  ∃ h : Bytes → Bytes, (∀ b, (h b).length = 64) ∧
    ∀ c, (T h (Str.utf8 p) s c)[1]? = some 0xff ∧ (T h (Str.utf8 q) t c)[1]? = some 0

/-- Two blocks, or two salts, that a probe tells apart. -/
theorem told {p q : Str} {P s t : Bytes} (hP : block (probe (Str.utf8 p) P s) (Str.utf8 p) = P)
    (hQ : block (probe (Str.utf8 p) P s) (Str.utf8 q) ≠ P ∨ t ≠ s ∧ block (probe (Str.utf8 p) P s) (Str.utf8 q) = P)
    (h1 : ∀ t, 128 < (P.map (· ^^^ 0x5c) ++ t).length → P.map (· ^^^ 0x5c) ++ t ≠ Str.utf8 p)
    (h2 : ∀ t, 128 < (P.map (· ^^^ 0x36) ++ t).length → P.map (· ^^^ 0x36) ++ t ≠ Str.utf8 p) : Told p s q t := by
  have hl : P.length = 128 := by rw [← hP]; exact block_length (probe_length _ P s) _
  refine ⟨_, probe_length (Str.utf8 p) P s, fun c => ⟨?_, (T_other hl (hQ.imp id fun h => ⟨h.1, h.2, h2⟩) c).2⟩⟩
  rw [T_self hP h1 h2]
  rfl

/-- A long password is told from every other, and its salts from each other. -/
theorem long_told {p q : Str} {s t : Bytes} (hp : 128 < Str.len p) (hne : p ≠ q ∨ s ≠ t) : Told p s q t := by
  have hp' : 128 < (Str.utf8 p).length := hp
  have hP : block (probe (Str.utf8 p) ((0xA3 :: List.replicate 63 0) ++ List.replicate 64 0) s) (Str.utf8 p) =
      (0xA3 :: List.replicate 63 0) ++ List.replicate 64 0 := by
    unfold block
    rw [if_pos hp']
    have : probe (Str.utf8 p) ((0xA3 :: List.replicate 63 0) ++ List.replicate 64 0) s (Str.utf8 p) = 0xA3 :: List.replicate 63 0 := by
      unfold probe
      rw [if_pos ⟨hp', rfl⟩]
    rw [this]
    rfl
  refine told hP ?_ ?_ ?_
  · by_cases hpq : p = q
    · subst hpq
      exact .inr ⟨(hne.resolve_left fun h => h rfl).symm, hP⟩
    refine .inl fun e => ?_
    unfold block at e
    by_cases hq : 128 < (Str.utf8 q).length
    · rw [if_pos hq] at e
      have : probe (Str.utf8 p) ((0xA3 :: List.replicate 63 0) ++ List.replicate 64 0) s (Str.utf8 q) = List.replicate 64 0 := by
        unfold probe
        rw [if_neg (fun h => hpq (utf8_inj h.2).symm), if_neg, if_neg]
        · intro h
          rw [List.cons_append, List.map_cons, List.cons_append] at h
          exact utf8_start q _ _ (.inl (by decide)) h
        · intro h
          rw [List.cons_append, List.map_cons, List.cons_append] at h
          exact utf8_start q _ _ (.inr (by decide)) h
      rw [this] at e
      revert e
      decide
    · rw [if_neg hq] at e
      cases hu : Str.utf8 q with
      | nil => rw [hu] at e; revert e; decide
      | cons b t =>
        rw [hu, List.cons_append, List.cons_append, List.cons.injEq] at e
        exact utf8_start q b t (.inl (by rw [e.1]; decide)) hu
  · intro t _ h
    rw [List.cons_append, List.map_cons, List.cons_append] at h
    exact utf8_start p _ _ (.inr (by decide)) h.symm
  · intro t _ h
    rw [List.cons_append, List.map_cons, List.cons_append] at h
    exact utf8_start p _ _ (.inl (by decide)) h.symm

/-- Short passwords that are not the same when filled up with zeros are told apart, and so are their salts. -/
theorem short_told {p q : Str} {s t : Bytes} (hp : Str.len p ≤ 128) (hq : Str.len q ≤ 128)
    (hne : Str.utf8 p ++ List.replicate (128 - Str.len p) 0 ≠ Str.utf8 q ++ List.replicate (128 - Str.len q) 0 ∨ s ≠ t) : Told p s q t := by
  have hb : ∀ (f : Bytes → Bytes) (u : Str), Str.len u ≤ 128 → block f (Str.utf8 u) = Str.utf8 u ++ List.replicate (128 - Str.len u) 0 := by
    intro f u hu
    unfold block
    rw [if_neg (by rw [Str.len] at hu; omega)]
    rfl
  have hlong : ∀ k t, 128 < ((Str.utf8 p ++ List.replicate (128 - Str.len p) 0).map (· ^^^ k) ++ t).length →
      (Str.utf8 p ++ List.replicate (128 - Str.len p) 0).map (· ^^^ k) ++ t ≠ Str.utf8 p := by
    intro k t h1 h2
    rw [h2] at h1
    rw [Str.len] at hp
    omega
  refine told (hb _ p hp) ?_ (hlong _) (hlong _)
  rw [hb _ q hq]
  by_cases he : Str.utf8 q ++ List.replicate (128 - Str.len q) 0 = Str.utf8 p ++ List.replicate (128 - Str.len p) 0
  · exact .inr ⟨(hne.resolve_left fun h => h he.symm).symm, he⟩
  · exact .inl he

/-- Passwords that open the same are not told apart. -/
theorem not_same {p q : Str} (h : Told p (List.replicate 32 0) q (List.replicate 32 0)) : ¬ Same p q := by
  intro hs
  obtain ⟨f, hl, hT⟩ := h
  have hR := over_rfc hl
  have e := keyOf_of_same hs hR (List.replicate 32 0) (by simp)
  rw [keyOf, keyOf, hR.key, hR.key] at e
  have e := congrArg (·[1]?) e
  simp only [List.getElem?_take, (hT _).1, (hT _).2] at e
  revert e
  decide

/-- Of two passwords that open the same, a long one is the other. -/
theorem long_same {p q : Str} (hp : 128 < Str.len p) (h : Same p q) : p = q := by
  by_contra hne
  exact not_same (long_told hp (.inl hne)) h

/-- Short passwords that open the same have the same block. -/
theorem short_same {p q : Str} (hp : Str.len p ≤ 128) (hq : Str.len q ≤ 128) (h : Same p q) :
    Str.utf8 p ++ List.replicate (128 - Str.len p) 0 = Str.utf8 q ++ List.replicate (128 - Str.len q) 0 := by
  by_contra hne
  exact not_same (short_told hp hq (.inl hne)) h

/-- Two texts that agree when filled up with zeros. -/
theorem padded_of {p q : Str} (hl : Str.len p ≤ Str.len q) (hq : Str.len q ≤ 128)
    (h : Str.utf8 p ++ List.replicate (128 - Str.len p) 0 = Str.utf8 q ++ List.replicate (128 - Str.len q) 0) :
    ∃ k, q = p ++ List.replicate k '\x00' := by
  refine ⟨Str.len q - Str.len p, utf8_inj ?_⟩
  have h := congrArg (List.take (Str.len q)) h
  rw [List.take_left' (show (Str.utf8 q).length = Str.len q from rfl), List.take_append, List.take_of_length_le hl, List.take_replicate] at h
  rw [← h, Str.utf8_append, utf8_replicate]
  congr 2
  rw [← Str.len]
  omega

/-! ### The actual hash -/

theorem real_block (k : Bytes) : Real.hmacPad k = block Real.sha512 k := by unfold Real.hmacPad block; rfl

theorem real_hmac (k m : Bytes) : Real.hmacSha512 k m = hmac Real.sha512 k m := by rw [Real.hmacSha512, hmac, real_block]

theorem real_loop (p s : Bytes) (c j : Nat) :
    Real.pbkdf2Loop p c (U Real.sha512 p s j) (T Real.sha512 p s j) = T Real.sha512 p s (j + c) := by
  induction c generalizing j with
  | zero => rfl
  | succ c ih =>
    have := ih (j + 1)
    rw [T, U] at this
    rw [Real.pbkdf2Loop, real_hmac, Real.xorBytes, this]
    congr 1
    omega

/-- A result of at most one block. -/
theorem real_one (p s : Bytes) (c n : Nat) (h1 : (n + 63) / 64 = 1) : Real.hashes.pbkdf2 p s c n = (T Real.sha512 p s (c - 1)).take n := by
  have h0 : Real.hashes.pbkdf2 p s c n = Real.pbkdf2 p s c n := rfl
  rw [h0, Real.pbkdf2, h1, List.range_one, List.flatMap_singleton, Real.pbkdf2Block]
  have h1 : Bytes.beBytes 4 (0 + 1) = [0, 0, 0, 1] := by decide
  have h2 : Real.hmacSha512 p (s ++ Bytes.beBytes 4 (0 + 1)) = U Real.sha512 p s 0 := by rw [h1, real_hmac, U]
  have h3 := real_loop p s (c - 1) 0
  rw [T, Nat.zero_add] at h3
  rw [h2, h3]

/-- The keys of the library are made as the RFCs say, with SHA-512. -/
theorem real_rfc : Rfc Real.sha512 Real.hashes := ⟨Real.sha512_len, fun p s => real_one p s 19162 32 (by omega)⟩

/-- The seeds of the library are made as the RFCs say, with SHA-512. -/
theorem real_seeds : RfcSeeds Real.sha512 Real.hashes := by
  refine ⟨Real.sha512_len, fun p s => ?_⟩
  rw [real_one p s 2048 64 (by omega)]
  exact List.take_of_length_le (Nat.le_of_eq (T_length Real.sha512_len p s _))

end KC.Passwords
