/-
Specification vocabulary: big-endian bit strings.  Independent of the model.
-/
namespace KC.Spec

/-- The `w` low bits of `x`, most significant first. -/
def bitsBE (w x : Nat) : List Bool := (List.range w).map fun i => x.testBit (w - 1 - i)

/-- The bits of a byte string, most significant bit of each byte first. -/
def bytesBits (b : List UInt8) : List Bool := b.flatMap fun x => bitsBE 8 x.toNat

/-- The concatenation of the 11-bit forms of a list of numbers. -/
def wordsBits (es : List UInt16) : List Bool := es.flatMap fun e => bitsBE 11 e.toNat

end KC.Spec
