import Verif.Model.Base64
import Verif.Spec.Base64
import Verif.Proofs.Toy
/-
A decoder that accepts exactly the canonical texts: the structure `Base64.Decoder` is inhabited.  The encoder is that of RFC 4648.
-/
namespace KC.Base64

/-- Value of a digit. -/
def val (c : Char) : Option Nat := let i := digits.idxOf c; if i < 64 then some i else none

/-- Canonical decoding, by groups of four digits. -/
def decodeStrict : Str → Option Bytes
  | [] => some []
  | a :: b :: c :: d :: r => do
    let x ← val a
    let y ← val b
    if c = '=' ∧ d = '=' ∧ r = [] then
      if y % 16 = 0 then some [UInt8.ofNat (x * 4 + y / 16)] else none
    else
      let z ← val c
      if d = '=' ∧ r = [] then
        if z % 4 = 0 then some [UInt8.ofNat (x * 4 + y / 16), UInt8.ofNat (y % 16 * 16 + z / 4)] else none
      else
        let w ← val d
        let rest ← decodeStrict r
        some (UInt8.ofNat (x * 4 + y / 16) :: UInt8.ofNat (y % 16 * 16 + z / 4) :: UInt8.ofNat (z % 4 * 64 + w) :: rest)
  | _ => none

theorem val_digit {n : Nat} (h : n < 64) : val (digit n) = some n := by
  have : ∀ i : Fin 64, val (digit i.val) = some i.val := by decide +kernel
  exact this ⟨n, h⟩

theorem digit_ne {n : Nat} (h : n < 64) : digit n ≠ '=' := by
  have : ∀ i : Fin 64, digit i.val ≠ '=' := by decide +kernel
  exact this ⟨n, h⟩

theorem u8_eq {n : Nat} {a : UInt8} (h : n = a.toNat) : UInt8.ofNat n = a := by rw [h, UInt8.ofNat_toNat]

theorem decode_encode (b : Bytes) : decodeStrict (encode b) = some b := by
  induction b using encode.induct with
  | case1 => rfl
  | case2 a =>
    have ha := a.toNat_lt
    simp only [encode, decodeStrict]
    rw [val_digit (by omega), val_digit (by omega)]
    simp only [Option.bind_eq_bind, Option.bind_some, and_self, if_true]
    rw [if_pos (by omega), u8_eq (a := a) (by omega)]
  | case3 a b =>
    have ha := a.toNat_lt
    have hb := b.toNat_lt
    simp only [encode, decodeStrict]
    rw [val_digit (by omega), val_digit (by omega), val_digit (by omega)]
    simp only [Option.bind_eq_bind, Option.bind_some, and_self, if_true]
    rw [if_neg (fun h => digit_ne (by omega) h.1), if_pos (by omega), u8_eq (a := a) (by omega), u8_eq (a := b) (by omega)]
  | case4 a b c r ih =>
    have ha := a.toNat_lt
    have hb := b.toNat_lt
    have hc := c.toNat_lt
    simp only [encode, decodeStrict]
    rw [val_digit (by omega), val_digit (by omega), val_digit (by omega), val_digit (by omega), ih]
    simp only [Option.bind_eq_bind, Option.bind_some]
    rw [if_neg (fun h => digit_ne (by omega) h.1), if_neg (fun h => digit_ne (by omega) h.1), u8_eq (a := a) (by omega), u8_eq (a := b) (by omega),
      u8_eq (a := c) (by omega)]

/-- The strict decoder. -/
def strict : Decoder := ⟨decodeStrict, decode_encode⟩

/-! ### RFC 4648 -/
open KC.Spec.Base64 in
theorem digit_letter {n : Nat} (h : n < 64) : digit n = letter n := by
  have : ∀ i : Fin 64, digit i.val = letter i.val := by decide +kernel
  exact this ⟨n, h⟩

open KC.Spec.Base64 in
/-- The bits of a byte, and the numbers made of some of them. -/
theorem byte_bits (x : UInt8) : ∃ a b c d e f g h : Bool, (∀ r, bits (x :: r) = a :: b :: c :: d :: e :: f :: g :: h :: bits r) ∧
    x.toNat = 128 * a.toNat + 64 * b.toNat + 32 * c.toNat + 16 * d.toNat + 8 * e.toNat + 4 * f.toNat + 2 * g.toNat + h.toNat := by
  refine ⟨x.toNat.testBit 7, x.toNat.testBit 6, x.toNat.testBit 5, x.toNat.testBit 4, x.toNat.testBit 3, x.toNat.testBit 2,
    x.toNat.testBit 1, x.toNat.testBit 0, fun r => rfl, ?_⟩
  have : ∀ i : Fin 256, i.val = 128 * (i.val.testBit 7).toNat + 64 * (i.val.testBit 6).toNat + 32 * (i.val.testBit 5).toNat +
    16 * (i.val.testBit 4).toNat + 8 * (i.val.testBit 3).toNat + 4 * (i.val.testBit 2).toNat + 2 * (i.val.testBit 1).toNat +
    (i.val.testBit 0).toNat := by decide +kernel
  exact this ⟨x.toNat, x.toNat_lt⟩

open KC.Spec.Base64 in
theorem groups_six (a b c d e f : Bool) (l : List Bool) : groups (a :: b :: c :: d :: e :: f :: l) =
    (32 * a.toNat + 16 * b.toNat + 8 * c.toNat + 4 * d.toNat + 2 * e.toNat + f.toNat) :: groups l := by
  rw [groups]
  simp only [List.cons_append, List.take_succ_cons, List.take_zero, List.drop_succ_cons, List.drop_zero, number,
    List.foldl_cons, List.foldl_nil]
  congr 1
  omega

open KC.Spec.Base64 in
/-- The text is Base64 as RFC 4648 defines it. -/
theorem encode_rfc (b : Bytes) : encode b = text b := by
  induction b using encode.induct with
  | case1 => decide +kernel
  | case2 x =>
    obtain ⟨a, b, c, d, e, f, g, h, hb, hx⟩ := byte_bits x
    have hg : groups (bits [x]) = [x.toNat / 4, x.toNat % 4 * 16] := by
      rw [hb, groups_six]
      simp only [bits, List.flatMap_nil]
      rw [groups, groups.eq_def]
      simp only [List.drop_succ_cons, List.drop_nil, number, List.replicate, List.cons_append, List.nil_append,
        List.take_succ_cons, List.take_zero, List.foldl_cons, List.foldl_nil]
      have := h.toNat_lt
      have := g.toNat_lt
      congr 1
      · omega
      · congr 1
        simp only [Bool.toNat_false]
        omega
    have := x.toNat_lt
    simp only [text, hg, List.map_cons, List.map_nil, encode]
    rw [digit_letter (by omega), digit_letter (by omega)]
    rfl
  | case3 x y =>
    obtain ⟨a, b, c, d, e, f, g, h, hb, hx⟩ := byte_bits x
    obtain ⟨a', b', c', d', e', f', g', h', hb', hy⟩ := byte_bits y
    have hg : groups (bits [x, y]) = [x.toNat / 4, x.toNat % 4 * 16 + y.toNat / 16, y.toNat % 16 * 4] := by
      rw [hb, hb', groups_six, groups_six]
      simp only [bits, List.flatMap_nil]
      rw [groups, groups.eq_def]
      simp only [List.drop_succ_cons, List.drop_nil, number, List.replicate, List.cons_append, List.nil_append,
        List.take_succ_cons, List.take_zero, List.foldl_cons, List.foldl_nil]
      have := h.toNat_lt
      have := g.toNat_lt
      have := h'.toNat_lt
      have := g'.toNat_lt
      have := f'.toNat_lt
      have := e'.toNat_lt
      congr 1
      · omega
      · congr 1
        · omega
        · congr 1
          simp only [Bool.toNat_false]
          omega
    have := x.toNat_lt
    have := y.toNat_lt
    simp only [text, hg, List.map_cons, List.map_nil, encode]
    rw [digit_letter (by omega), digit_letter (by omega), digit_letter (by omega)]
    rfl
  | case4 x y z r ih =>
    obtain ⟨a, b, c, d, e, f, g, h, hb, hx⟩ := byte_bits x
    obtain ⟨a', b', c', d', e', f', g', h', hb', hy⟩ := byte_bits y
    obtain ⟨a'', b'', c'', d'', e'', f'', g'', h'', hb'', hz⟩ := byte_bits z
    have hg : groups (bits (x :: y :: z :: r)) = x.toNat / 4 :: (x.toNat % 4 * 16 + y.toNat / 16) ::
        (y.toNat % 16 * 4 + z.toNat / 64) :: z.toNat % 64 :: groups (bits r) := by
      rw [hb, hb', hb'', groups_six, groups_six, groups_six, groups_six]
      have := h.toNat_lt
      have := g.toNat_lt
      have := h'.toNat_lt
      have := g'.toNat_lt
      have := f'.toNat_lt
      have := e'.toNat_lt
      have := h''.toNat_lt
      have := g''.toNat_lt
      have := f''.toNat_lt
      have := e''.toNat_lt
      have := d''.toNat_lt
      have := c''.toNat_lt
      congr 1
      · omega
      · congr 1
        · omega
        · congr 1
          · omega
          · congr 1
            omega
    have := x.toNat_lt
    have := y.toNat_lt
    have := z.toNat_lt
    simp only [text, hg, List.map_cons, encode, List.length_cons, List.cons_append]
    rw [digit_letter (by omega), digit_letter (by omega), digit_letter (by omega), digit_letter (by omega), ih]
    simp only [text]
    rw [show ((groups (bits r)).map letter).length + 1 + 1 + 1 + 1 = ((groups (bits r)).map letter).length + 4 by omega,
      Nat.add_mod_right]

end KC.Base64
