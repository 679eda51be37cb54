import Verif.Model.Str
import Verif.Spec.Hex
namespace KC

@[simp] theorem Str.utf8_nil : Str.utf8 [] = [] := rfl
@[simp] theorem Str.utf8_cons (c s) : Str.utf8 (c :: s) = String.utf8EncodeChar c ++ Str.utf8 s := rfl
@[simp] theorem Str.utf8_append (a b : Str) : Str.utf8 (a ++ b) = Str.utf8 a ++ Str.utf8 b := by
  simp [Str.utf8]
theorem Str.len_eq (s : Str) : Str.len s = Spec.utf8Length s := by
  induction s with
  | nil => rfl
  | cons c s ih => simp_all [Str.len, Spec.utf8Length]

/-- An ASCII character is one byte of the same number. -/
theorem utf8_ascii (c : Char) (h : c.toNat < 128) : String.utf8EncodeChar c = [UInt8.ofNat c.toNat] := by
  have : c.val.toNat ≤ 0x7f := by have : c.val.toNat = c.toNat := rfl; omega
  simp only [String.utf8EncodeChar, this, if_true]
  rfl

theorem utf8Size_ascii (c : Char) (h : c.toNat < 128) : c.utf8Size = 1 := by
  rw [← String.length_utf8EncodeChar, utf8_ascii c h]; rfl

/-- Every other character begins with a byte from 0xC0 up. -/
theorem utf8_high (c : Char) (h : 128 ≤ c.toNat) : ∃ b t, String.utf8EncodeChar c = b :: t ∧ 192 ≤ b.toNat := by
  have h1 : ¬ c.val.toNat ≤ 0x7f := by have : c.val.toNat = c.toNat := rfl; omega
  simp only [String.utf8EncodeChar, h1, if_false]
  split
  · exact ⟨_, _, rfl, by rw [UInt8.toNat_ofNat']; omega⟩
  · split
    · exact ⟨_, _, rfl, by rw [UInt8.toNat_ofNat']; omega⟩
    · exact ⟨_, _, rfl, by rw [UInt8.toNat_ofNat']; omega⟩

theorem utf8Size_high (c : Char) (h : 128 ≤ c.toNat) : 2 ≤ c.utf8Size := by
  have h1 : ¬ c.val.toNat ≤ 0x7f := by have : c.val.toNat = c.toNat := rfl; omega
  rw [← String.length_utf8EncodeChar]
  simp only [String.utf8EncodeChar, h1, if_false]
  split
  · simp
  · split <;> simp

theorem Char.toNat_inj' {a b : Char} (h : a.toNat = b.toNat) : a = b := by
  apply Char.ext
  apply UInt32.toNat_inj.mp
  exact h

end KC
