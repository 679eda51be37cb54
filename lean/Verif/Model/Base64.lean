import Verif.Model.Str
/-
Crate `base64` 0.10.1, configuration `STANDARD` (keychain/src/data.rs:75).
-/
namespace KC.Base64

/-- The standard alphabet. -/
def digits : List Char := "ABCDEFGHIJKLMNOPQRSTUVWXYZabcdefghijklmnopqrstuvwxyz0123456789+/".toList

/-- Digit for a number below 64. -/
def digit (n : Nat) : Char := digits.getD (n % 64) 'A'

/-- `base64::encode_config(_, STANDARD)`: groups of three bytes to four digits, padded with `=`. -/
def encode : Bytes → Str
  | [] => []
  | [a] =>
    [digit (a.toNat / 4), digit (a.toNat % 4 * 16), '=', '=']
  | [a, b] =>
    [digit (a.toNat / 4), digit (a.toNat % 4 * 16 + b.toNat / 16), digit (b.toNat % 16 * 4), '=']
  | a :: b :: c :: r =>
    digit (a.toNat / 4) :: digit (a.toNat % 4 * 16 + b.toNat / 16) :: digit (b.toNat % 16 * 4 + c.toNat / 64) ::
      digit (c.toNat % 64) :: encode r

/-- `base64::decode_config(_, STANDARD)`.  What the crate does with texts that no encoder writes (missing padding, stray low
bits) is left open: any decoder that undoes `encode` is admitted. -/
structure Decoder where
  decode : Str → Option Bytes
  decode_encode : ∀ b, decode (encode b) = some b

end KC.Base64
