import Verif.Model.Basic
/-
Slices of byte buffers and big-endian numbers (`&b[i..j]`, `copy_from_slice`, `byteorder::BigEndian`).
-/
namespace KC.Bytes

/-- `&b[i..j]`; `none` = panic (out of range). -/
def slice (b : Bytes) (i j : Nat) : Option Bytes :=
  if i ≤ j ∧ j ≤ b.length then some ((b.drop i).take (j - i)) else none

/-- `dst.copy_from_slice(src)` for a destination of `n` bytes; `none` = panic (lengths differ). -/
def copyFrom (n : Nat) (src : Bytes) : Option { b : Bytes // b.length = n } :=
  if h : src.length = n then some ⟨src, h⟩ else none

/-- Big-endian value of a byte string. -/
def beNat (b : Bytes) : Nat := b.foldl (fun a x => a * 256 + x.toNat) 0

/-- Big-endian form of a number in `n` bytes. -/
def beBytes : Nat → Nat → Bytes
  | 0, _ => []
  | n + 1, x => beBytes n (x / 256) ++ [UInt8.ofNat x]

end KC.Bytes
