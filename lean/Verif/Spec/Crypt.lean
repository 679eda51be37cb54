import Verif.Model.Prims
/-
What encrypted wallet data is: salt (32), nonce (12), tag (16), ciphertext, with the key PBKDF2-HMAC-SHA512(password, salt,
19162 rounds, 32 bytes).
-/
namespace KC.Spec.Crypt

/-- The authenticated cipher opens what it sealed. -/
def AeadCorrect (A : Aead) : Prop := ∀ k n p, A.dec k n (A.enc k n p).1 (A.enc k n p).2 = some p

/-- The part of the source's output from position `p` on, `n` bytes long. -/
def seg (stream : Nat → UInt8) (p n : Nat) : Bytes := (List.range n).map fun i => stream (p + i)

/-- The key for a password and a salt. -/
def keyOf (P : Hashes) (password : Str) (salt : Bytes) : Bytes := P.pbkdf2 (Str.utf8 password) salt 19162 32

/-- `blob` is cut into its four parts. -/
structure Parts (blob salt nonce tag ct : Bytes) : Prop where
  eq : blob = salt ++ (nonce ++ (tag ++ ct))
  salt_len : salt.length = 32
  nonce_len : nonce.length = 12
  tag_len : tag.length = 16

end KC.Spec.Crypt
