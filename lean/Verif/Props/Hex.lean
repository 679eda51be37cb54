import Verif.Proofs.Hex
/-
Properties C03, C04 (bip39/src/util/hex.rs).
-/
namespace KC.Props
open KC.Hex KC.Spec

/-- C03: encoding never panics; it gives two lower-case digits per byte, most significant first. -/
theorem C03_encode (b : Bytes) : ∃ s, encode b = some s ∧ s.length = 2 * b.length ∧
    s.map hexDigit = b.flatMap (fun x => [some (x.toNat / 16), some (x.toNat % 16)]) ∧
    ∀ c ∈ s, 'a' ≤ c ∧ c ≤ 'f' ∨ '0' ≤ c ∧ c ≤ '9' := by
  induction b with
  | nil => exact ⟨[], rfl, rfl, rfl, by simp⟩
  | cons x b ih =>
    obtain ⟨t, ht, hl, hm, hc⟩ := ih
    obtain ⟨h, l, h1, h2, h3, h4, h5, h6⟩ := encode_cons x
    refine ⟨h :: l :: t, by rw [encode, h1, h2, ht]; rfl, by simp [hl]; omega, by simp [h3, h4, hm], ?_⟩
    intro c hc'
    simp only [List.mem_cons] at hc'
    rcases hc' with rfl | rfl | hc'
    · exact h5
    · exact h6
    · exact hc c hc'

/-- C04: a text of digits and white space decodes to its digits paired in order. -/
theorem C04_accept (s : Str) (hs : ∀ c ∈ s, hexOk c) : decode s = .ok (pairUp (s.filterMap hexDigit)) := by
  obtain ⟨i, m, b, h, -⟩ := (loop_ok s hs []).1 0 0 []
  simpa [decode, decodeLoop] using h

/-- C04: otherwise decoding fails with the byte index of the first character outside the set. -/
theorem C04_reject (pre : Str) (c : Char) (post : Str) (hp : ∀ x ∈ pre, hexOk x) (hc : ¬ hexOk c) :
    decode (pre ++ c :: post) = .err (.unknownSymbol (utf8Length pre)) := by
  obtain ⟨i, m, b, h, hi⟩ := (loop_ok pre hp (Str.utf8 (c :: post))).1 0 0 []
  simp only [decode, Str.utf8_append]
  rw [h, Str.utf8_cons, step_bad c hc, hexOk_len pre hp, hi, Nat.zero_add]

/-- C04: the language accepted. -/
theorem C04_language (s : Str) : (∃ b, decode s = .ok b) ↔ ∀ c ∈ s, hexOk c := by
  constructor
  · intro ⟨b, h⟩
    by_contra hc
    have : ∃ pre c post, s = pre ++ c :: post ∧ (∀ x ∈ pre, hexOk x) ∧ ¬ hexOk c := by
      clear h
      induction s with
      | nil => simp at hc
      | cons a s ih =>
        by_cases ha : hexOk a
        · have : ¬ ∀ c ∈ s, hexOk c := by
            intro h; apply hc; intro c hc'
            rcases List.mem_cons.mp hc' with rfl | h'
            · exact ha
            · exact h c h'
          obtain ⟨pre, c, post, e, h1, h2⟩ := ih this
          refine ⟨a :: pre, c, post, by simp [e], ?_, h2⟩
          intro x hx
          rcases List.mem_cons.mp hx with rfl | h'
          · exact ha
          · exact h1 x h'
        · exact ⟨[], a, s, rfl, by simp, ha⟩
    obtain ⟨pre, c, post, rfl, h1, h2⟩ := this
    rw [C04_reject pre c post h1 h2] at h
    cases h
  · intro h
    exact ⟨_, C04_accept s h⟩

/-- C03: decoding what was encoded returns the bytes. -/
theorem C03_roundtrip (b : Bytes) : ∃ s, encode b = some s ∧ decode s = .ok b := by
  obtain ⟨s, h, -, hm, -⟩ := C03_encode b
  refine ⟨s, h, ?_⟩
  have hok : ∀ c ∈ s, hexOk c := by
    intro c hc
    left
    have : hexDigit c ∈ s.map hexDigit := List.mem_map_of_mem hc
    rw [hm] at this
    simp only [List.mem_flatMap, List.mem_cons, List.not_mem_nil, or_false] at this
    obtain ⟨x, -, h | h⟩ := this <;> simp [h]
  rw [C04_accept s hok]
  congr 1
  have hf : s.filterMap hexDigit = b.flatMap fun x => [x.toNat / 16, x.toNat % 16] := by
    have : s.filterMap hexDigit = (s.map hexDigit).filterMap id := by simp [List.filterMap_map]
    rw [this, hm]
    clear hm h hok this
    induction b with
    | nil => rfl
    | cons x b ih => simp [ih]
  rw [hf]
  clear hf hm h hok
  induction b with
  | nil => rfl
  | cons x b ih =>
    simp only [List.flatMap_cons, List.cons_append, List.nil_append, pairUp, ih]
    congr 1
    rw [Nat.div_add_mod]
    exact UInt8.ofNat_toNat

/-- Non-vacuity: mixed case, white space in the middle of a byte, an unpaired last digit. -/
example : ∀ c ∈ "0 F\tfa\n3".toList, hexOk c := by
  intro c hc; simp at hc; rcases hc with rfl | rfl | rfl | rfl | rfl | rfl | rfl | rfl <;> simp [hexOk, hexSpace] <;> decide
example : decode "0 F\tfa\n3".toList = .ok [0x0f, 0xfa] := by decide
/-- Non-vacuity of the rejection: a multi-byte bad character, and one hidden behind white space. -/
example : ¬ hexOk 'é' ∧ ¬ hexOk 'g' ∧ decode "a1 é2".toList = .err (.unknownSymbol 3) := by
  refine ⟨?_, ?_, by decide⟩ <;> simp [hexOk, hexSpace] <;> decide

end KC.Props
