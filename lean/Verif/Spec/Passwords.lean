import Verif.Model.Crypt
/-
When two passwords are the same to the encryption, and two phrases to the wallet: the key is made by PBKDF2 (RFC 8018) with HMAC (RFC 2104), over a hash `h` with
blocks of 128 bytes and results of 64.
-/
namespace KC.Spec.Passwords

/-- RFC 2104: the key as one block: hashed when longer, filled up with zeros. -/
def block (h : Bytes → Bytes) (k : Bytes) : Bytes :=
  let k := if 128 < k.length then h k else k
  k ++ List.replicate (128 - k.length) 0

/-- RFC 2104. -/
def hmac (h : Bytes → Bytes) (k m : Bytes) : Bytes :=
  h ((block h k).map (· ^^^ 0x5c) ++ h ((block h k).map (· ^^^ 0x36) ++ m))

/-- RFC 8018, 5.2: `U j` is the RFC's U_{j+1}, for the first block. -/
def U (h : Bytes → Bytes) (p s : Bytes) : Nat → Bytes
  | 0 => hmac h p (s ++ [0, 0, 0, 1])
  | j + 1 => hmac h p (U h p s j)

/-- RFC 8018, 5.2: the combination of `U 0` to `U c`. -/
def T (h : Bytes → Bytes) (p s : Bytes) : Nat → Bytes
  | 0 => U h p s 0
  | c + 1 => List.zipWith (· ^^^ ·) (T h p s c) (U h p s (c + 1))

/-- The keys of `H` are made as the RFCs say, with the hash `h`. -/
structure Rfc (h : Bytes → Bytes) (H : Hashes) : Prop where
  len : ∀ b, (h b).length = 64
  key : ∀ p s, H.pbkdf2 p s 19162 32 = (T h p s 19161).take 32

/-- The seeds of `H` are made as the RFCs say, with the hash `h`. -/
structure RfcSeeds (h : Bytes → Bytes) (H : Hashes) : Prop where
  len : ∀ b, (h b).length = 64
  seed : ∀ p s, H.pbkdf2 p s 2048 64 = T h p s 2047

/-- The passwords open the same data, to the same result, whatever the hash and the cipher. -/
def Same (p q : Str) : Prop :=
  ∀ h H A blob, Rfc h H → Crypt.decrypt H A blob p = Crypt.decrypt H A blob q

end KC.Spec.Passwords
