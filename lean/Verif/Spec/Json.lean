import Verif.Model.Json
/-
JSON texts (RFC 8259), as a relation between a value and its UTF-8 text.  Nothing here refers to the reader or the writer of the
model; only its tree type is shared.  String literals that are well delimited but stand for no Unicode text (lone surrogates,
bytes that are not UTF-8) are included, with the value `none`: such text may occur where it is skipped.
-/
namespace KC.Spec.Json
open KC.Json (Json)

/-- White space: blank, tab, line feed, carriage return. -/
inductive Ws : Bytes → Prop
  | nil : Ws []
  | cons (b r) : b ∈ [32, 9, 10, 13] → Ws r → Ws (b :: r)

/-- A hexadecimal digit and its value. -/
inductive Hex : Nat → UInt8 → Prop
  | dec (n) : n < 10 → Hex n (UInt8.ofNat (48 + n))
  | low (n) : n < 6 → Hex (10 + n) (UInt8.ofNat (97 + n))
  | up (n) : n < 6 → Hex (10 + n) (UInt8.ofNat (65 + n))

/-- Four hexadecimal digits and their value. -/
inductive Hex4 : Nat → Bytes → Prop
  | mk (a b c d x y z w) : Hex a x → Hex b y → Hex c z → Hex d w → Hex4 (4096 * a + 256 * b + 16 * c + d) [x, y, z, w]

/-- Two-character escapes: letter after the backslash, and the character meant. -/
def shortEscapes : List (UInt8 × Char) :=
  [(34, '"'), (92, '\\'), (47, '/'), (98, Char.ofNat 8), (102, Char.ofNat 12), (110, '\n'), (114, '\r'), (116, '\t')]

/-- The inside of a string literal. -/
inductive Chars : Str → Bytes → Prop
  | nil : Chars [] []
  | raw (c s b) : 32 ≤ c.toNat → c ≠ '"' → c ≠ '\\' → Chars s b → Chars (c :: s) (String.utf8EncodeChar c ++ b)
  | short (e c s b) : (e, c) ∈ shortEscapes → Chars s b → Chars (c :: s) (92 :: e :: b)
  | uni (c : Char) (h s b) : Hex4 c.toNat h → Chars s b → Chars (c :: s) (92 :: 117 :: (h ++ b))
  | pair (c : Char) (hi lo h l s b) : Hex4 (0xD800 + hi) h → Hex4 (0xDC00 + lo) l → hi < 1024 → lo < 1024 →
      c.toNat = 0x10000 + 1024 * hi + lo → Chars s b → Chars (c :: s) (92 :: 117 :: (h ++ 92 :: 117 :: (l ++ b)))

/-- The inside of a string literal, well delimited, whether or not it stands for Unicode text. -/
inductive Lit : Bytes → Prop
  | nil : Lit []
  | raw (x b) : 32 ≤ x → x ≠ 34 → x ≠ 92 → Lit b → Lit (x :: b)
  | short (e c b) : (e, c) ∈ shortEscapes → Lit b → Lit (92 :: e :: b)
  | uni (n h b) : Hex4 n h → Lit b → Lit (92 :: 117 :: (h ++ b))

/-- The inside of a string literal and its text; `none` if it stands for none. -/
inductive Literal : Option Str → Bytes → Prop
  | text (s b) : Chars s b → Literal (some s) b
  | other (b) : Lit b → (∀ s, ¬ Chars s b) → Literal none b

/-- Decimal digits without superfluous zeros, and their value. -/
inductive Dec : Nat → Bytes → Prop
  | one (n) : n < 10 → Dec n [UInt8.ofNat (48 + n)]
  | more (n k ds) : n ≠ 0 → k < 10 → Dec n ds → Dec (10 * n + k) (ds ++ [UInt8.ofNat (48 + k)])

/-- One or more decimal digits. -/
def Digits (b : Bytes) : Prop := b ≠ [] ∧ ∀ x ∈ b, 48 ≤ x ∧ x ≤ 57

/-- A fraction. -/
inductive Frac : Bytes → Prop
  | mk (ds) : Digits ds → Frac (46 :: ds)

/-- An exponent: `e` or `E`, perhaps a sign, digits. -/
inductive Exp : Bytes → Prop
  | mk (e s ds) : e ∈ [101, 69] → s ∈ [[], [43], [45]] → Digits ds → Exp (e :: (s ++ ds))

/-- What makes a number other than an integer literal: a fraction, an exponent, or both. -/
inductive Tail : Bytes → Prop
  | frac (f) : Frac f → Tail f
  | exp (e) : Exp e → Tail e
  | both (f e) : Frac f → Exp e → Tail (f ++ e)

mutual
/-- A value nested at most `d` deep and its text, without white space around it. -/
inductive Text : Nat → Json → Bytes → Prop
  | null (d) : Text d .null [110, 117, 108, 108]
  | tt (d) : Text d (.bool true) [116, 114, 117, 101]
  | ff (d) : Text d (.bool false) [102, 97, 108, 115, 101]
  | nat (d n b) : Dec n b → Text d (.int n) b
  | neg (d n b) : Dec n b → Text d (.int (-(n : Int))) (45 :: b)
  | float (d s n b t) : s ∈ [[], [45]] → Dec n b → Tail t → Text d .float (s ++ (b ++ t))
  | str (d s b) : Literal s b → Text d (.str s) (34 :: (b ++ [34]))
  | arr0 (d w) : Ws w → Text (d + 1) (.arr []) (91 :: (w ++ [93]))
  | arr (d l b) : Elems d l b → Text (d + 1) (.arr l) (91 :: (b ++ [93]))
  | obj0 (d w) : Ws w → Text (d + 1) (.obj []) (123 :: (w ++ [125]))
  | obj (d l b) : Members d l b → Text (d + 1) (.obj l) (123 :: (b ++ [125]))

/-- One or more values separated by commas, with white space around each. -/
inductive Elems : Nat → List Json → Bytes → Prop
  | one (d j w b w') : Ws w → Text d j b → Ws w' → Elems d [j] (w ++ b ++ w')
  | cons (d j l w b w' r) : Ws w → Text d j b → Ws w' → Elems d l r → Elems d (j :: l) (w ++ b ++ w' ++ 44 :: r)

/-- One or more members `"key" : value` separated by commas, with white space around each part. -/
inductive Members : Nat → List (Option Str × Json) → Bytes → Prop
  | one (d k j w kb w1 w2 b w') : Ws w → Literal k kb → Ws w1 → Ws w2 → Text d j b → Ws w' →
      Members d [(k, j)] (w ++ 34 :: (kb ++ 34 :: (w1 ++ 58 :: (w2 ++ b ++ w'))))
  | cons (d k j l w kb w1 w2 b w' r) : Ws w → Literal k kb → Ws w1 → Ws w2 → Text d j b → Ws w' → Members d l r →
      Members d ((k, j) :: l) (w ++ 34 :: (kb ++ 34 :: (w1 ++ 58 :: (w2 ++ b ++ w' ++ 44 :: r))))
end

/-- A JSON document: a value, nested at most 127 deep, with white space around it. -/
inductive Doc : Json → Bytes → Prop
  | mk (j w b w') : Ws w → Text 127 j b → Ws w' → Doc j (w ++ b ++ w')

end KC.Spec.Json
