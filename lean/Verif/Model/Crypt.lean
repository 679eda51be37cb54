import Verif.Model.Prims
import Verif.Model.Rng
import Verif.Model.Bytes
/-
Model of keychain/src/crypt.rs.
-/
namespace KC.Crypt

/-- keychain/src/crypt.rs:9-25 `password_encryption_parameter`. -/
def iter : Nat := 19162
def saltSize : Nat := 32
def nonceSize : Nat := 12
def keySize : Nat := 32
def tagSize : Nat := 16
def metadataSize : Nat := saltSize + nonceSize + tagSize
def saltStart : Nat := 0
def saltEnd : Nat := saltStart + saltSize
def nonceStart : Nat := saltEnd
def nonceEnd : Nat := nonceStart + nonceSize
def tagStart : Nat := nonceEnd
def tagEnd : Nat := tagStart + tagSize
def encryptedStart : Nat := tagEnd

/-- crypt.rs:27-31 `DecryptError`. -/
inductive DecryptError where
  | notEnoughData
  | decryptionFailed
deriving DecidableEq, Repr

/-- crypt.rs:44-70 `encrypt`.  It has no error; `ε` is the error type of the caller. -/
def encrypt {ε : Type} (P : Hashes) (A : Aead) (data : Bytes) (password : Str) : RM ε Bytes := do
  let salt ← RM.fill saltSize
  let nonce ← RM.fill nonceSize
  let key := P.pbkdf2 (Str.utf8 password) salt iter keySize
  let (encrypted, tag) := A.enc key nonce data
  RM.lift (.ok (salt ++ nonce ++ tag ++ encrypted))

/-- crypt.rs:72-101 `decrypt`. -/
def decrypt (P : Hashes) (A : Aead) (data : Bytes) (password : Str) : Res DecryptError Bytes :=
  if data.length ≤ metadataSize then .err .notEnoughData
  else do
    let salt ← Res.ofPanic (Bytes.slice data saltStart saltEnd)
    let nonce ← Res.ofPanic (Bytes.slice data nonceStart nonceEnd)
    let tag ← Res.ofPanic (Bytes.slice data tagStart tagEnd)
    let encrypted ← Res.ofPanic (Bytes.slice data encryptedStart data.length)
    let key := P.pbkdf2 (Str.utf8 password) salt iter keySize
    match A.dec key nonce encrypted tag with
    | some decrypted => .ok decrypted
    | none => .err .decryptionFailed

end KC.Crypt
