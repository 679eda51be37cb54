import Verif.Model.Str
/-
External crates as parameters.  Only output lengths are assumed; correctness of the cipher and of the signature
schemes are separate hypotheses, stated where used.
-/
namespace KC

/-- Hash functions used by the crates (`cryptoxide` sha2, sha3, hmac, pbkdf2; `ripemd160`), modelled as arbitrary functions
with the right output length. -/
structure Hashes where
  /-- `cryptoxide::sha2::Sha256`. -/
  sha256 : Bytes → Bytes
  sha256_len : ∀ b, (sha256 b).length = 32
  /-- `cryptoxide::sha2::Sha512`. -/
  sha512 : Bytes → Bytes
  sha512_len : ∀ b, (sha512 b).length = 64
  /-- `cryptoxide::sha3::Sha3::keccak256`. -/
  keccak256 : Bytes → Bytes
  keccak256_len : ∀ b, (keccak256 b).length = 32
  /-- `ripemd160::Ripemd160`. -/
  ripemd160 : Bytes → Bytes
  ripemd160_len : ∀ b, (ripemd160 b).length = 20
  /-- `cryptoxide::hmac::Hmac` over `Sha512`: key, message. -/
  hmacSha512 : Bytes → Bytes → Bytes
  hmacSha512_len : ∀ k m, (hmacSha512 k m).length = 64
  /-- `cryptoxide::pbkdf2::pbkdf2` over HMAC-SHA512: password, salt, iterations, output length. -/
  pbkdf2 : Bytes → Bytes → Nat → Nat → Bytes
  pbkdf2_len : ∀ p s c n, (pbkdf2 p s c n).length = n

/-- `cryptoxide::chacha20poly1305::ChaCha20Poly1305` with empty associated data. -/
structure Aead where
  /-- key, nonce, plaintext to ciphertext and tag. -/
  enc : Bytes → Bytes → Bytes → Bytes × Bytes
  enc_len : ∀ k n p, (enc k n p).1.length = p.length
  tag_len : ∀ k n p, (enc k n p).2.length = 16
  /-- key, nonce, ciphertext, tag; `none` when the tag does not match. -/
  dec : Bytes → Bytes → Bytes → Bytes → Option Bytes
  dec_len : ∀ k n c t p, dec k n c t = some p → p.length = c.length

end KC
