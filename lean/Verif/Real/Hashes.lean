import Verif.Real.Hmac
import Verif.Real.Keccak
import Verif.Real.Chacha
import Verif.Spec.Crypt
/-
The records of external functions, filled with the actual algorithms.
-/
namespace KC.Real

/-- The hash functions the library uses. -/
def hashes : Hashes where
  sha256 := sha256
  sha256_len := sha256_len
  sha512 := sha512
  sha512_len := sha512_len
  keccak256 := keccak256
  keccak256_len := keccak256_len
  ripemd160 := Ripemd.ripemd160
  ripemd160_len := Ripemd.ripemd160_len
  hmacSha512 := hmacSha512
  hmacSha512_len := hmacSha512_len
  pbkdf2 := pbkdf2
  pbkdf2_len := pbkdf2_len

/-- The cipher the library uses. -/
def aead : Aead where
  enc := Chacha.enc
  enc_len k n p := by simp only [Chacha.enc, Chacha.crypt_len]
  tag_len k n p := by simp only [Chacha.enc, Chacha.tag_len]
  dec := Chacha.dec
  dec_len k n c t p h := by
    unfold Chacha.dec at h
    split at h
    · rw [← Option.some.inj h, Chacha.crypt_len]
    · cases h

theorem aead_enc : aead.enc = Chacha.enc := by simp only [aead]
theorem aead_dec : aead.dec = Chacha.dec := by simp only [aead]

/-- ChaCha20-Poly1305 opens what it sealed. -/
theorem aead_correct : Spec.Crypt.AeadCorrect aead := by
  intro k n p
  rw [aead_enc, aead_dec]
  exact Chacha.dec_enc k n p

end KC.Real
