import Verif.Spec.Hmac
import Verif.Spec.Sha2
import Verif.Spec.Keccak
import Verif.Spec.Secp256k1
import Verif.Spec.EdBip32
/-
From a phrase to keys and signatures in the words of the documents alone: BIP-39, BIP-32, SEC 1, BIP32-Ed25519 and RFC 8032, over the
relations for SHA-512, HMAC, PBKDF2 and Keccak and Mathlib's groups of points.  No algorithm of the model or of `Verif/Real` occurs, and
no record of external functions.
-/
namespace KC.Spec.Standard
open KC.Spec.Bip32 (be IsBe n)
open KC.Spec.Secp256k1 (G Uncompressed Compressed)
open KC.Spec.Ed25519 (B IsLe le Encodes Messages)

/-- SHA-512. -/
def Sha512 (m d : Bytes) : Prop := Sha2.IsHash Sha2.fns512 m d

/-- HMAC-SHA512. -/
def Hmac512 (k m d : Bytes) : Prop := Hmac.IsHmac (Sha2.IsHash Sha2.fns512) 128 k m d

/-- ASCII text as bytes. -/
def ascii (s : String) : Bytes := s.toList.map fun c => UInt8.ofNat c.toNat

/-- BIP-39: the seed of a phrase (in UTF-8) without a passphrase. -/
def Seed (phrase seed : Bytes) : Prop := Hmac.IsPbkdf2 (Hmac.IsHmac (Sha2.IsHash Sha2.fns512) 128) 64 phrase (ascii "mnemonic") 2048 64 seed

/-! ### BIP-32 -/

/-- An extended private key: secret and chain code. -/
structure Node where
  k : Nat
  c : Bytes

/-- The master key of a seed. -/
def Master (seed : Bytes) (x : Node) : Prop :=
  ∃ il : Bytes, il.length = 32 ∧ x.c.length = 32 ∧ Hmac512 (ascii "Bitcoin seed") seed (il ++ x.c) ∧ x.k = be il ∧ 0 < x.k ∧ x.k < n

/-- The halves of the hash for child `i`: a number and a chain code. -/
def Halves (x : Node) (i : UInt32) (l : Nat) (c : Bytes) : Prop :=
  ∃ d ib il : Bytes, IsBe 4 i.toNat ib ∧
    ((2 ^ 31 ≤ i.toNat ∧ ∃ kb, IsBe 32 x.k kb ∧ d = [0] ++ kb ++ ib) ∨ (i.toNat < 2 ^ 31 ∧ ∃ pb, Compressed (x.k • G) pb ∧ d = pb ++ ib)) ∧
    il.length = 32 ∧ c.length = 32 ∧ Hmac512 x.c d (il ++ c) ∧ l = be il

/-- Child `i`. -/
def Child (x : Node) (i : UInt32) (y : Node) : Prop :=
  ∃ l, Halves x i l y.c ∧ l < n ∧ y.k = (l + x.k) % n ∧ y.k ≠ 0

/-- The number for child `i` is too large or gives the secret zero (there is no child), or is zero. -/
def Exceptional (x : Node) (i : UInt32) : Prop := ∃ l c, Halves x i l c ∧ (l = 0 ∨ n ≤ l ∨ (l + x.k) % n = 0)

/-- Derivation along a path. -/
inductive Derive : Node → List UInt32 → Node → Prop
  | nil (x) : Derive x [] x
  | cons {x i y is z} : Child x i y → Derive y is z → Derive x (i :: is) z

/-- No step of the path is exceptional. -/
def Regular (x : Node) (is : List UInt32) : Prop :=
  ∀ before i after z, is = before ++ i :: after → Derive x before z → ¬ Exceptional z i

/-! ### BIP32-Ed25519 -/

/-- An extended private key: scalar, nonce half, chain code. -/
structure EdNode where
  kl : Bytes
  kr : Bytes
  c : Bytes

/-- The root key that the library makes of a seed: the hash of its first half with the bits of a scalar set, and its second half. -/
def EdMaster (seed : Bytes) (x : EdNode) : Prop :=
  seed.length = 64 ∧ ∃ (h : Bytes) (b0 b31 : UInt8), Sha512 (seed.take 32) h ∧ x.kl = [b0] ++ (h.drop 1).take 30 ++ [b31] ∧
    b0.toNat = (h.getD 0 0).toNat - (h.getD 0 0).toNat % 8 ∧ b31.toNat = (h.getD 31 0).toNat % 32 + 64 ∧
    x.kr = h.drop 32 ∧ x.c = seed.drop 32

/-- Child `i`. -/
def EdChild (x : EdNode) (i : UInt32) (y : EdNode) : Prop :=
  ∃ mz mi z zi, Messages x.kl x.kr i mz mi ∧ Hmac512 x.c mz z ∧ Hmac512 x.c mi zi ∧
    IsLe 32 ((le x.kl + 8 * le (z.take 28)) % 2 ^ 256) y.kl ∧ IsLe 32 ((le x.kr + le (z.drop 32)) % 2 ^ 256) y.kr ∧ y.c = zi.drop 32

/-- Derivation along a path. -/
inductive EdDerive : EdNode → List UInt32 → EdNode → Prop
  | nil (x) : EdDerive x [] x
  | cons {x i y is z} : EdChild x i y → EdDerive y is z → EdDerive x (i :: is) z

/-- RFC 8032, 5.1.7: `R ‖ S` is a signature of `m` for the public key `A`. -/
def EdValid (A : Ed25519.E.Point) (m R S : Bytes) : Prop :=
  ∃ P a h, Encodes P R ∧ Encodes A a ∧ Sha512 (R ++ a ++ m) h ∧ le S • B = P + le h • A

end KC.Spec.Standard
