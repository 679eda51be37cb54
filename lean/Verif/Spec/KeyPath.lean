/-
Specification of key path texts: a grammar, independent of the parser model.
-/
namespace KC.Spec

/-- Unicode `White_Space` characters. -/
def whiteSpaces : List Nat :=
  [0x9, 0xA, 0xB, 0xC, 0xD, 0x20, 0x85, 0xA0, 0x1680, 0x2000, 0x2001, 0x2002, 0x2003, 0x2004, 0x2005, 0x2006, 0x2007,
   0x2008, 0x2009, 0x200A, 0x2028, 0x2029, 0x202F, 0x205F, 0x3000]

def White (c : Char) : Prop := c.toNat ∈ whiteSpaces

instance : DecidablePred White := fun c => inferInstanceAs (Decidable (c.toNat ∈ whiteSpaces))

/-- `t` is `s` without surrounding white space. -/
def Trimmed (s t : List Char) : Prop :=
  ∃ l r, s = l ++ t ++ r ∧ (∀ c ∈ l, White c) ∧ (∀ c ∈ r, White c) ∧
    (∀ c, t.head? = some c → ¬ White c) ∧ (∀ c, t.getLast? = some c → ¬ White c)

def Digits (ds : List Char) : Prop := ∀ c ∈ ds, 48 ≤ c.toNat ∧ c.toNat ≤ 57

/-- The value of a string of decimal digits. -/
def decVal (ds : List Char) : Nat := ds.foldl (fun a c => 10 * a + (c.toNat - 48)) 0

/-- Decimal numeral with optional plus sign. -/
def Numeral (t : List Char) (n : Nat) : Prop :=
  ∃ sign ds, (sign = [] ∨ sign = ['+']) ∧ ds ≠ [] ∧ Digits ds ∧ t = sign ++ ds ∧ decVal ds = n

/-- Text of one part (without surrounding white space): a numeral below 2^32, with a `'` suffix when hardened. -/
def PartText (t : List Char) (hard : Bool) (n : Nat) : Prop :=
  ∃ body, Numeral body n ∧ n < 2 ^ 32 ∧ t = body ++ (if hard then ['\''] else [])

/-- A text that begins like a numeral, and whose digits before any other character exceed 32 bits. -/
def TooBig (t : List Char) : Prop :=
  ∃ sign ds rest, (sign = [] ∨ sign = ['+']) ∧ Digits ds ∧ t = sign ++ ds ++ rest ∧ 2 ^ 32 ≤ decVal ds

/-- One part, white space allowed around it, and the component it stands for.  With overflow checks a hardened number must be
below 2^31; without them it is reduced modulo 2^32. -/
def Component (checked : Bool) (s : List Char) (v : Nat) : Prop :=
  ∃ t hard n, Trimmed s t ∧ PartText t hard n ∧ (hard = true → checked = true → n < 2 ^ 31) ∧
    v = if hard then (n + 2 ^ 31) % 2 ^ 32 else n

/-- The path text with the given parts. -/
def slashed (parts : List (List Char)) : List Char := ['/'].intercalate parts

end KC.Spec
