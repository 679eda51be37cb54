import Verif.Model.Prims
/-
A trivial instance of the external primitives, for showing hypotheses satisfiable.
-/
namespace KC.Toy

def pad (n : Nat) (b : Bytes) : Bytes := (b ++ List.replicate n 0).take n

theorem pad_len (n : Nat) (b : Bytes) : (pad n b).length = n := by simp [pad]

/-- Hashes that keep the front of their input. -/
def hashes : Hashes where
  sha256 b := pad 32 b
  sha256_len := pad_len 32
  sha512 b := pad 64 b
  sha512_len := pad_len 64
  keccak256 b := pad 32 b
  keccak256_len := pad_len 32
  ripemd160 b := pad 20 b
  ripemd160_len := pad_len 20
  hmacSha512 k m := pad 64 (k ++ m)
  hmacSha512_len k m := pad_len 64 (k ++ m)
  pbkdf2 p s _ n := pad n (p ++ s)
  pbkdf2_len p s _ n := pad_len n (p ++ s)

/-- A cipher that leaves the text as it is; the tag is the front of key, nonce and text. -/
def aead : Aead where
  enc k n p := (p, pad 16 (k.take 8 ++ n.take 4 ++ p))
  enc_len _ _ _ := rfl
  tag_len k n p := pad_len 16 _
  dec k n c t := if t = pad 16 (k.take 8 ++ n.take 4 ++ c) then some c else none
  dec_len k n c t p h := by
    split at h
    · cases h; rfl
    · cases h

end KC.Toy
