import Verif.Spec.Secp256k1
/-
RFC 6979: the nonces of deterministic ECDSA, for a hash of 32 bytes and a group order of 256 bits, and the signature made with them
(SEC 1, 4.1.3, with the smaller of the two possible second halves).
-/
namespace KC.Spec.Rfc6979
open KC.Spec.Secp256k1

/-- RFC 6979, 3.2, steps b to h: with HMAC `M` (key first), secret `x` and message hash `h`, both as 32 bytes, the values of `K` and `V`
before candidate `i` is made. -/
inductive State (M : Bytes → Bytes → Bytes) (x h : Bytes) : Nat → Bytes → Bytes → Prop
  | start (V₀ K₀ K₁ V₁ K₂ V₂ : Bytes) : V₀ = List.replicate 32 1 → K₀ = List.replicate 32 0 →
      K₁ = M K₀ (V₀ ++ [0] ++ x ++ h) → V₁ = M K₁ V₀ → K₂ = M K₁ (V₁ ++ [1] ++ x ++ h) → V₂ = M K₂ V₁ → State M x h 0 K₂ V₂
  | retry (i : Nat) (K V K' V' : Bytes) : State M x h i K V → K' = M K (M K V ++ [0]) → V' = M K' (M K V) → State M x h (i + 1) K' V'

/-- RFC 6979, 3.2, step h: candidate `i` is `j`. -/
def Candidate (M : Bytes → Bytes → Bytes) (x h : Bytes) (i j : Nat) : Prop := ∃ K V, State M x h i K V ∧ j = Bip32.be (M K V)

/-- SEC 1, 4.1.3: `r`, `s` and the recovery id `v` for the secret `k`, the number `z` of the message and the nonce `j`; of `s` and `-s`
the smaller one is taken. -/
def Made (z k j r s v : Nat) : Prop :=
  0 < j ∧ j < n ∧ ∃ x y h, j • G = .some x y h ∧ r = x.val % n ∧ r ≠ 0 ∧ 0 < s ∧ s ≤ n / 2 ∧
    (((s : ZMod n) * j = z + r * k ∧ v = (if n ≤ x.val then 2 else 0) + y.val % 2) ∨
     ((s : ZMod n) * j = -(z + r * k) ∧ v = (if n ≤ x.val then 2 else 0) + (1 - y.val % 2)))

/-- RFC 6979: the signature is made with the first candidate that is good for one, and this is candidate `i`. -/
def Signed (M : Bytes → Bytes → Bytes) (x h : Bytes) (z k i r s v : Nat) : Prop :=
  (∃ j, Candidate M x h i j ∧ Made z k j r s v) ∧ ∀ i' j r' s' v', i' < i → Candidate M x h i' j → ¬ Made z k j r' s' v'

/-- Two different pairs of a 32-byte key and a text with the same code. -/
def Collision (M : Bytes → Bytes → Bytes) : Prop :=
  ∃ k t k' t', k.length = 32 ∧ k'.length = 32 ∧ (k, t) ≠ (k', t') ∧ M k t = M k' t'

end KC.Spec.Rfc6979
