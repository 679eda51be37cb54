import Verif.Spec.Secp256k1
/-
BIP-32 public derivation (CKDpub), stated without the model's functions.
-/
namespace KC.Spec.Bip32
open KC.Spec.Secp256k1 (E G Compressed)

/-- `(Q, d)` is the public child number `i` of `(P, c)`, points with chain codes.  BIP-32 excludes
a left half from the order on and the point at infinity; as in `Child`, a left half of zero is excluded too. -/
def PubChild (H : Hashes) (P : E.Point) (c : Bytes) (i : UInt32) (Q : E.Point) (d : Bytes) : Prop :=
  i.toNat < 2 ^ 31 ∧ ∃ pb ib il : Bytes, Compressed P pb ∧ IsBe 4 i.toNat ib ∧ il.length = 32 ∧
    H.hmacSha512 c (pb ++ ib) = il ++ d ∧ 0 < be il ∧ be il < n ∧ Q = be il • G + P ∧ Q ≠ 0

/-- Public derivation along a path. -/
inductive PubWalk (H : Hashes) : E.Point → Bytes → List UInt32 → E.Point → Bytes → Prop
  | nil (P c) : PubWalk H P c [] P c
  | cons {P c i Q d is R e} : PubChild H P c i Q d → PubWalk H Q d is R e → PubWalk H P c (i :: is) R e

end KC.Spec.Bip32
