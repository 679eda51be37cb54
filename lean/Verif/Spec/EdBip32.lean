import Verif.Spec.Ed25519
import Verif.Spec.Keys
/-
BIP32-Ed25519 (Khovratovich and Law), scheme V2 of crate `ed25519-bip32`, stated without functions of the model.  An extended key is 96
bytes: scalar, nonce half, chain code.
-/
namespace KC.Spec.Ed25519
open KC.Cardano (XPrv)

/-- `x` consists of the three parts. -/
def Parts (x : XPrv) (kl kr cc : Bytes) : Prop := x.val = kl ++ kr ++ cc ∧ kl.length = 32 ∧ kr.length = 32 ∧ cc.length = 32

/-- `(A', c')` is child `i` of the public key `(A, c)`: without secrets, so for indices below 2^31. -/
def PubChild (H : Hashes) (A : E.Point) (c : Bytes) (i : UInt32) (A' : E.Point) (c' : Bytes) : Prop :=
  i.toNat < 2 ^ 31 ∧ ∃ a ib : Bytes, Encodes A a ∧ IsLe 4 i.toNat ib ∧
    A' = A + (8 * le ((H.hmacSha512 c ([2] ++ a ++ ib)).take 28)) • B ∧ c' = (H.hmacSha512 c ([3] ++ a ++ ib)).drop 32

/-- The messages of the two hashes of a step: over the secret from 2^31 on, over the public key below. -/
def Messages (kl kr : Bytes) (i : UInt32) (mz mi : Bytes) : Prop :=
  ∃ ib, IsLe 4 i.toNat ib ∧
    ((2 ^ 31 ≤ i.toNat ∧ mz = [0] ++ kl ++ kr ++ ib ∧ mi = [1] ++ kl ++ kr ++ ib) ∨
     (i.toNat < 2 ^ 31 ∧ ∃ a, Encodes (le kl • B) a ∧ mz = [2] ++ a ++ ib ∧ mi = [3] ++ a ++ ib))

/-- `y` is child `i` of `x`. -/
def Child (H : Hashes) (x : XPrv) (i : UInt32) (y : XPrv) : Prop :=
  ∃ kl kr cc kl' kr' cc' mz mi, Parts x kl kr cc ∧ Parts y kl' kr' cc' ∧ Messages kl kr i mz mi ∧
    le kl' = (le kl + 8 * le ((H.hmacSha512 cc mz).take 28)) % 2 ^ 256 ∧
    le kr' = (le kr + le ((H.hmacSha512 cc mz).drop 32)) % 2 ^ 256 ∧
    cc' = (H.hmacSha512 cc mi).drop 32

/-- Derivation along a path. -/
inductive Walk (H : Hashes) : XPrv → List UInt32 → XPrv → Prop
  | nil (x) : Walk H x [] x
  | cons {x i y is z} : Child H x i y → Walk H y is z → Walk H x (i :: is) z

/-- Public derivation along a path. -/
inductive PubWalk (H : Hashes) : E.Point → Bytes → List UInt32 → E.Point → Bytes → Prop
  | nil (A c) : PubWalk H A c [] A c
  | cons {A c i A' c' is A'' c''} : PubChild H A c i A' c' → PubWalk H A' c' is A'' c'' → PubWalk H A c (i :: is) A'' c''

end KC.Spec.Ed25519
