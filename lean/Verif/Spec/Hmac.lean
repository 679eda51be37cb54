import Verif.Spec.Bip32
/-
HMAC (RFC 2104) and PBKDF2 (RFC 8018) over a hash and a pseudorandom function given as relations.
-/
namespace KC.Spec.Hmac
open KC.Spec.Bip32 (IsBe)

/-- RFC 2104: `k0` is the key `k` as one block of `B` bytes: hashed when longer, and filled up with zeros. -/
def IsBlock (Hash : Bytes → Bytes → Prop) (B : Nat) (k k0 : Bytes) : Prop :=
  k0.length = B ∧ ∃ (k' : Bytes) (z : Nat), k0 = k' ++ List.replicate z 0 ∧ (k.length ≤ B → k' = k) ∧ (B < k.length → Hash k k')

/-- RFC 2104: `d` is the code of `m` under `k`: H(K ⊕ opad ‖ H(K ⊕ ipad ‖ m)). -/
def IsHmac (Hash : Bytes → Bytes → Prop) (B : Nat) (k m d : Bytes) : Prop :=
  ∃ k0 i, IsBlock Hash B k k0 ∧ Hash (k0.map (· ^^^ 0x36) ++ m) i ∧ Hash (k0.map (· ^^^ 0x5c) ++ i) d

/-- RFC 8018, 5.2: `d` is the key of `n` bytes for password `p`, salt `s` and `c` iterations of a function with results of `L` bytes:
`U i j` is U_j of block `i`; byte `k` of the key combines byte `k mod L` of U_1 to U_c of block `k / L + 1`. -/
def IsPbkdf2 (Prf : Bytes → Bytes → Bytes → Prop) (L : Nat) (p s : Bytes) (c n : Nat) (d : Bytes) : Prop :=
  d.length = n ∧ ∃ U : Nat → Nat → Bytes,
    (∀ i I, IsBe 4 i I → Prf p (s ++ I) (U i 1)) ∧
    (∀ i j, 1 ≤ i → i < 2 ^ 32 → 1 ≤ j → Prf p (U i j) (U i (j + 1))) ∧
    ∀ k < n, d.getD k 0 = ((List.range c).map fun j => (U (k / L + 1) (j + 1)).getD (k % L) 0).foldl (· ^^^ ·) 0

end KC.Spec.Hmac
