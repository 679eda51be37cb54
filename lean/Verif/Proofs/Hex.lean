import Verif.Model.Hex
import Verif.Spec.Hex
import Verif.Proofs.Str
import Verif.Tactics
namespace KC.Hex
open KC.Spec

theorem le_iff (a b : Char) : a ≤ b ↔ a.toNat ≤ b.toNat := Iff.rfl

theorem hexDigit_lt {c : Char} {d : Nat} (h : hexDigit c = some d) : d < 16 := by
  simp only [hexDigit, le_iff] at h
  have e0 : '0'.toNat = 48 := rfl
  have e9 : '9'.toNat = 57 := rfl
  have ea : 'a'.toNat = 97 := rfl
  have ef : 'f'.toNat = 102 := rfl
  have eA : 'A'.toNat = 65 := rfl
  have eF : 'F'.toNat = 70 := rfl
  split_ifs at h <;> simp only [Option.some.injEq] at h <;> omega

theorem shl_or (buf : UInt8) (d : Nat) (h : d < 16) :
    (buf <<< 4 ||| UInt8.ofNat d).toNat = 16 * (buf.toNat % 16) + d := by
  simp only [UInt8.toNat_or, UInt8.toNat_shiftLeft, UInt8.toNat_ofNat']
  have e4 : (4 : UInt8).toNat % 8 = 4 := rfl
  rw [e4, show d % 2 ^ 8 = d by omega, Nat.shiftLeft_eq]
  have h1 : buf.toNat * 2 ^ 4 % 2 ^ 8 = 2 ^ 4 * (buf.toNat % 16) := by omega
  rw [h1, ← Nat.two_pow_add_eq_or_of_lt (by omega)]

theorem shl_shr (buf : UInt8) : (buf <<< 4 >>> 4).toNat % 16 = buf.toNat % 16 := by
  simp only [UInt8.toNat_shiftRight, UInt8.toNat_shiftLeft]
  have e4 : (4 : UInt8).toNat % 8 = 4 := rfl
  rw [e4, Nat.shiftLeft_eq, Nat.shiftRight_eq_div_pow]
  omega

/-- Loop step on a digit. -/
theorem step_digit (c : Char) (d : Nat) (h : hexDigit c = some d) (rest : Bytes) (idx m : Nat) (buf : UInt8)
    (b : Bytes) :
    decodeLoop (String.utf8EncodeChar c ++ rest) idx m buf b =
      if m + 1 = 2 then decodeLoop rest (idx + 1) 0 (buf <<< 4 ||| UInt8.ofNat d)
        (b ++ [buf <<< 4 ||| UInt8.ofNat d])
      else decodeLoop rest (idx + 1) (m + 1) (buf <<< 4 ||| UInt8.ofNat d) b := by
  simp only [hexDigit, le_iff] at h
  have e0 : '0'.toNat = 48 := rfl
  have e9 : '9'.toNat = 57 := rfl
  have ea : 'a'.toNat = 97 := rfl
  have ef : 'f'.toNat = 102 := rfl
  have eA : 'A'.toNat = 65 := rfl
  have eF : 'F'.toNat = 70 := rfl
  have hc : c.toNat < 128 := by split_ifs at h <;> omega
  have hb : (UInt8.ofNat c.toNat).toNat = c.toNat := by rw [UInt8.toNat_ofNat']; omega
  rw [utf8_ascii c hc]
  generalize UInt8.ofNat c.toNat = x at hb
  simp only [List.cons_append, List.nil_append, decodeLoop, UInt8.le_iff_toNat_le, UInt8.reduceToNat, hb,
    beq_iff_eq]
  split_ifs at h with h1 h2 h3
  · have hd : x - 0x30 = UInt8.ofNat d := by
      apply UInt8.toNat_inj.mp
      simp only [Option.some.injEq] at h
      rw [UInt8.toNat_sub_of_le _ _ (by rw [UInt8.le_iff_toNat_le, hb]; simp; omega), UInt8.toNat_ofNat', hb]
      simp; omega
    rw [if_neg (by omega), if_neg (by omega), if_pos (by omega), hd]
  · have hd : x - 0x61 + 10 = UInt8.ofNat d := by
      apply UInt8.toNat_inj.mp
      simp only [Option.some.injEq] at h
      rw [UInt8.toNat_add, UInt8.toNat_sub_of_le _ _ (by rw [UInt8.le_iff_toNat_le, hb]; simp; omega),
        UInt8.toNat_ofNat', hb]
      simp; omega
    rw [if_neg (by omega), if_pos (by omega), hd]
  · have hd : x - 0x41 + 10 = UInt8.ofNat d := by
      apply UInt8.toNat_inj.mp
      simp only [Option.some.injEq] at h
      rw [UInt8.toNat_add, UInt8.toNat_sub_of_le _ _ (by rw [UInt8.le_iff_toNat_le, hb]; simp; omega),
        UInt8.toNat_ofNat', hb]
      simp; omega
    rw [if_pos (by omega), hd]

theorem step_space (c : Char) (h : hexSpace c) (rest : Bytes) (idx m : Nat) (buf : UInt8) (b : Bytes) :
    decodeLoop (String.utf8EncodeChar c ++ rest) idx m buf b =
      decodeLoop rest (idx + 1) m (buf <<< 4 >>> 4) b := by
  rcases h with rfl | rfl | rfl | rfl <;> rfl

theorem space_no_digit (c : Char) (h : hexSpace c) : hexDigit c = none ∧ c.toNat < 128 := by
  rcases h with rfl | rfl | rfl | rfl <;> decide

theorem step_bad (c : Char) (h : ¬ hexOk c) (rest : Bytes) (idx m : Nat) (buf : UInt8) (b : Bytes) :
    decodeLoop (String.utf8EncodeChar c ++ rest) idx m buf b = .err (.unknownSymbol idx) := by
  simp only [hexOk, not_or, hexSpace] at h
  obtain ⟨hd, s1, s2, s3, s4⟩ := h
  simp only [hexDigit, le_iff] at hd
  have e0 : '0'.toNat = 48 := rfl
  have e9 : '9'.toNat = 57 := rfl
  have ea : 'a'.toNat = 97 := rfl
  have ef : 'f'.toNat = 102 := rfl
  have eA : 'A'.toNat = 65 := rfl
  have eF : 'F'.toNat = 70 := rfl
  have key : ∀ x : UInt8, ¬ (0x41 ≤ x ∧ x ≤ 0x46) → ¬ (0x61 ≤ x ∧ x ≤ 0x66) → ¬ (0x30 ≤ x ∧ x ≤ 0x39) →
      ¬ (x = 0x20 ∨ x = 0x0d ∨ x = 0x0a ∨ x = 0x09) → ∀ t, decodeLoop (x :: t) idx m buf b =
        .err (.unknownSymbol idx) := by
    intro x h1 h2 h3 h4 t
    simp only [decodeLoop, h1, h2, h3, h4, if_false]
  by_cases hc : c.toNat < 128
  · have hb : (UInt8.ofNat c.toNat).toNat = c.toNat := by rw [UInt8.toNat_ofNat']; omega
    rw [utf8_ascii c hc]
    generalize UInt8.ofNat c.toNat = x at hb
    have n1 : c.toNat ≠ 32 := fun h => s1 (Char.toNat_inj' h)
    have n2 : c.toNat ≠ 13 := fun h => s2 (Char.toNat_inj' h)
    have n3 : c.toNat ≠ 10 := fun h => s3 (Char.toNat_inj' h)
    have n4 : c.toNat ≠ 9 := fun h => s4 (Char.toNat_inj' h)
    split_ifs at hd with h1 h2 h3
    all_goals first | exact absurd rfl hd | skip
    refine key x ?_ ?_ ?_ ?_ rest <;>
      simp only [UInt8.le_iff_toNat_le, ← UInt8.toNat_inj, UInt8.reduceToNat, hb] <;> omega
  · obtain ⟨x, t, e, hx⟩ := utf8_high c (by omega)
    rw [e]
    refine key x ?_ ?_ ?_ ?_ _ <;>
      simp only [UInt8.le_iff_toNat_le, ← UInt8.toNat_inj, UInt8.reduceToNat] <;> omega

/-- Digits of a text. -/
abbrev digits (s : Str) : List Nat := s.filterMap hexDigit

theorem loop_ok (s : Str) (hs : ∀ c ∈ s, hexOk c) (rest : Bytes) :
    (∀ idx buf b, ∃ idx' m' buf' , decodeLoop (Str.utf8 s ++ rest) idx 0 buf b =
        decodeLoop rest idx' m' buf' (b ++ pairUp (digits s)) ∧ idx' = idx + s.length) ∧
    (∀ idx buf b, ∃ idx' m' buf' , decodeLoop (Str.utf8 s ++ rest) idx 1 buf b =
        decodeLoop rest idx' m' buf' (b ++ pairUp (buf.toNat % 16 :: digits s)) ∧ idx' = idx + s.length) := by
  induction s with
  | nil => exact ⟨fun idx buf b => ⟨idx, 0, buf, by simp [pairUp], rfl⟩,
      fun idx buf b => ⟨idx, 1, buf, by simp [pairUp], rfl⟩⟩
  | cons c s ih =>
    obtain ⟨ih0, ih1⟩ := ih (fun x hx => hs x (by simp [hx]))
    cases hd : hexDigit c with
    | some d =>
      have hlt := hexDigit_lt hd
      constructor
      · intro idx buf b
        obtain ⟨i', m', b', h, hi⟩ := ih1 (idx + 1) (buf <<< 4 ||| UInt8.ofNat d) b
        refine ⟨i', m', b', ?_, by simp; omega⟩
        rw [Str.utf8_cons, List.append_assoc, step_digit c d hd, if_neg (by omega), h, shl_or _ _ hlt]
        have hm : (16 * (buf.toNat % 16) + d) % 16 = d := by omega
        simp [digits, List.filterMap_cons, hd, hm]
      · intro idx buf b
        obtain ⟨i', m', b', h, hi⟩ := ih0 (idx + 1) (buf <<< 4 ||| UInt8.ofNat d)
          (b ++ [buf <<< 4 ||| UInt8.ofNat d])
        refine ⟨i', m', b', ?_, by simp; omega⟩
        rw [Str.utf8_cons, List.append_assoc, step_digit c d hd, if_pos (by omega), h]
        have : UInt8.ofNat (16 * (buf.toNat % 16) + d) = buf <<< 4 ||| UInt8.ofNat d := by
          rw [← shl_or _ _ hlt]; exact UInt8.ofNat_toNat
        simp [digits, List.filterMap_cons, hd, pairUp, this]
    | none =>
      have hsp : hexSpace c := by
        rcases hs c (by simp) with h | h
        · rw [hd] at h; cases h
        · exact h
      constructor
      · intro idx buf b
        obtain ⟨i', m', b', h, hi⟩ := ih0 (idx + 1) (buf <<< 4 >>> 4) b
        refine ⟨i', m', b', ?_, by simp; omega⟩
        rw [Str.utf8_cons, List.append_assoc, step_space c hsp, h]
        simp [digits, List.filterMap_cons, hd]
      · intro idx buf b
        obtain ⟨i', m', b', h, hi⟩ := ih1 (idx + 1) (buf <<< 4 >>> 4) b
        refine ⟨i', m', b', ?_, by simp; omega⟩
        rw [Str.utf8_cons, List.append_assoc, step_space c hsp, h, shl_shr]
        simp [digits, List.filterMap_cons, hd]

theorem hexOk_ascii (c : Char) (h : hexOk c) : c.utf8Size = 1 := by
  apply utf8Size_ascii
  rcases h with h | h
  · simp only [hexDigit, le_iff] at h
    have e9 : '9'.toNat = 57 := rfl
    have ef : 'f'.toNat = 102 := rfl
    have eF : 'F'.toNat = 70 := rfl
    split_ifs at h <;> first | omega | cases h
  · exact (space_no_digit c h).2

theorem hexOk_len (s : Str) (hs : ∀ c ∈ s, hexOk c) : utf8Length s = s.length := by
  induction s with
  | nil => rfl
  | cons c s ih =>
    have := ih (fun x hx => hs x (by simp [hx]))
    simp only [utf8Length, List.map_cons, List.sum_cons, List.length_cons] at *
    rw [hexOk_ascii c (hs c (by simp))]; omega

/-- The two digits of a byte. -/
theorem encode_cons (x : UInt8) : ∃ h l, alphabet[(x >>> 4).toNat]? = some h ∧ alphabet[(x &&& 0xf).toNat]? = some l ∧
    hexDigit h = some (x.toNat / 16) ∧ hexDigit l = some (x.toNat % 16) ∧ ('a' ≤ h ∧ h ≤ 'f' ∨ '0' ≤ h ∧ h ≤ '9') ∧
      ('a' ≤ l ∧ l ≤ 'f' ∨ '0' ≤ l ∧ l ≤ '9') := by
  have e1 : (x >>> 4).toNat = x.toNat / 16 := by
    rw [UInt8.toNat_shiftRight]; exact Nat.shiftRight_eq_div_pow _ _
  have e2 : (x &&& 0xf).toNat = x.toNat % 16 := by
    rw [UInt8.toNat_and]; exact Nat.and_two_pow_sub_one_eq_mod _ 4
  have key : ∀ k : Fin 16, ∃ h, alphabet[k.val]? = some h ∧ hexDigit h = some k.val ∧
      ('a' ≤ h ∧ h ≤ 'f' ∨ '0' ≤ h ∧ h ≤ '9') := by
    have h2 : ∀ k : Fin 16, alphabet[k.val]? = some (alphabet.getD k.val ' ') ∧
        hexDigit (alphabet.getD k.val ' ') = some k.val ∧
        ('a' ≤ alphabet.getD k.val ' ' ∧ alphabet.getD k.val ' ' ≤ 'f' ∨
          '0' ≤ alphabet.getD k.val ' ' ∧ alphabet.getD k.val ' ' ≤ '9') := by decide
    exact fun k => ⟨_, h2 k⟩
  have hx := x.toNat_lt
  obtain ⟨h, h1, h2, h3⟩ := key ⟨x.toNat / 16, by omega⟩
  obtain ⟨l, l1, l2, l3⟩ := key ⟨x.toNat % 16, by omega⟩
  exact ⟨h, l, by rw [e1]; exact h1, by rw [e2]; exact l1, h2, l2, h3, l3⟩

end KC.Hex
