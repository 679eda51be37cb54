import Verif.Model.Str
/-
Model of bip39/src/util/hex.rs.
-/
namespace KC.Hex

/-- bip39/src/util/hex.rs:15 `ALPHABET`. -/
def alphabet : List Char :=
  ['0', '1', '2', '3', '4', '5', '6', '7', '8', '9', 'a', 'b', 'c', 'd', 'e', 'f']

/-- hex.rs:20-24 `enum Error`. -/
inductive Error where
  | unknownSymbol (idx : Nat)
deriving DecidableEq, Repr

/-- hex.rs:47-55 `encode`; `none` = out-of-bounds index panic.  The `unsafe from_utf8_unchecked` is on alphabet
bytes, all ASCII, so the string is modelled directly as characters. -/
def encode : Bytes → Option Str
  | [] => some []
  | byte :: rest => do
    let h ← alphabet[(byte >>> 4).toNat]?
    let l ← alphabet[(byte &&& 0xf).toNat]?
    let t ← encode rest
    some (h :: l :: t)

/-- hex.rs:73-94, the loop of `decode` over the bytes with index; state `modulus`, `buf`, output `b`. -/
def decodeLoop : Bytes → Nat → Nat → UInt8 → Bytes → Res Error Bytes
  | [], _, _, _, b => .ok b
  | byte :: rest, idx, modulus, buf, b =>
    let buf := buf <<< 4
    let push (buf : UInt8) : Res Error Bytes :=
      let modulus := modulus + 1
      if modulus == 2 then decodeLoop rest (idx + 1) 0 buf (b ++ [buf])
      else decodeLoop rest (idx + 1) modulus buf b
    if 0x41 ≤ byte ∧ byte ≤ 0x46 then push (buf ||| (byte - 0x41 + 10))
    else if 0x61 ≤ byte ∧ byte ≤ 0x66 then push (buf ||| (byte - 0x61 + 10))
    else if 0x30 ≤ byte ∧ byte ≤ 0x39 then push (buf ||| (byte - 0x30))
    else if byte = 0x20 ∨ byte = 0x0d ∨ byte = 0x0a ∨ byte = 0x09 then
      decodeLoop rest (idx + 1) modulus (buf >>> 4) b
    else .err (.unknownSymbol idx)

/-- hex.rs:68-97 `decode`. -/
def decode (input : Str) : Res Error Bytes := decodeLoop (Str.utf8 input) 0 0 0 []

end KC.Hex
