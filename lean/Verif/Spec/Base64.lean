import Verif.Model.Str
/-
Base64 (RFC 4648, section 4), by bits.
-/
namespace KC.Spec.Base64

/-- Table 1 of the RFC: the character for a six-bit number. -/
def letter (n : Nat) : Char :=
  if n < 26 then Char.ofNat ('A'.toNat + n)
  else if n < 52 then Char.ofNat ('a'.toNat + (n - 26))
  else if n < 62 then Char.ofNat ('0'.toNat + (n - 52))
  else if n = 62 then '+' else '/'

/-- The bits of bytes, the most significant of each first. -/
def bits (b : Bytes) : List Bool := b.flatMap fun x => [7, 6, 5, 4, 3, 2, 1, 0].map fun i => x.toNat.testBit i

/-- Number with these bits, the most significant first. -/
def number (l : List Bool) : Nat := l.foldl (fun n b => 2 * n + b.toNat) 0

/-- The numbers of successive groups of six bits, the last filled up with zeros. -/
def groups : List Bool → List Nat
  | [] => []
  | a :: l => number (((a :: l) ++ List.replicate 5 false).take 6) :: groups (l.drop 5)
  termination_by l => l.length

/-- The text: a character for each group, filled up with `=` to a multiple of four. -/
def text (b : Bytes) : Str :=
  let cs := (groups (bits b)).map letter
  cs ++ List.replicate ((4 - cs.length % 4) % 4) '='

end KC.Spec.Base64
