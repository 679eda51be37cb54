import Verif.Spec.Bip32Pub
import Verif.Spec.EdBip32
/-
The way back from a child's secret to the parent's, with the parent's public key and chain code and without its secret.
-/
namespace KC.Spec.Bip32
open KC.Spec.Secp256k1 (E G Compressed)

/-- `k` is computed from the secret `k'` of child `i` (below 2^31), the public key `P` and the chain code `c`: subtract the left half of the
hash modulo the group order. -/
def ParentSecret (H : Hashes) (P : E.Point) (c : Bytes) (i : UInt32) (k' k : Nat) : Prop :=
  ∃ pb ib il ir : Bytes, Compressed P pb ∧ IsBe 4 i.toNat ib ∧ il.length = 32 ∧ ir.length = 32 ∧
    H.hmacSha512 c (pb ++ ib) = il ++ ir ∧ k = (k' + (n - be il % n)) % n

/-- The same along a path: down with public derivation, up again with the secret `k'` of the last key. -/
inductive Climb (H : Hashes) : E.Point → Bytes → List UInt32 → Nat → Nat → Prop
  | nil (P c k) : Climb H P c [] k k
  | cons {P c i Q d is k'' k' k} : PubChild H P c i Q d → Climb H Q d is k'' k' → ParentSecret H P c i k' k → Climb H P c (i :: is) k'' k

end KC.Spec.Bip32

namespace KC.Spec.Ed25519
open KC.Cardano (XPrv)

/-- `x` is computed from its child `y` of number `i` (below 2^31), its public key `A` and its chain code `c`: subtract what the step adds
to the scalar and to the nonce half. -/
def ParentKey (H : Hashes) (A : E.Point) (c : Bytes) (i : UInt32) (y x : XPrv) : Prop :=
  ∃ a ib z kl kr kl' kr' c', Encodes A a ∧ IsLe 4 i.toNat ib ∧ z = H.hmacSha512 c ([2] ++ a ++ ib) ∧ Parts y kl' kr' c' ∧ Parts x kl kr c ∧
    le kl = (le kl' + (2 ^ 256 - 8 * le (z.take 28))) % 2 ^ 256 ∧ le kr = (le kr' + (2 ^ 256 - le (z.drop 32))) % 2 ^ 256

/-- The same along a path. -/
inductive Climb (H : Hashes) : E.Point → Bytes → List UInt32 → XPrv → XPrv → Prop
  | nil (A c x) : Climb H A c [] x x
  | cons {A c i A' c' is z y x} : PubChild H A c i A' c' → Climb H A' c' is z y → ParentKey H A c i y x → Climb H A c (i :: is) z x

end KC.Spec.Ed25519
