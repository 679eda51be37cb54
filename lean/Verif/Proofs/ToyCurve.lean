import Verif.Proofs.Toy
import Verif.Proofs.Secp
/-
A trivial curve and hash pair, for showing hypotheses satisfiable.
-/
namespace KC.Toy
open KC.Secp KC.Bytes

/-- A curve whose public key is the secret itself. -/
def curve : Curve where
  Pub := Secret
  pub k := k
  ser k := [4] ++ beBytes 32 k.val ++ List.replicate 32 0
  ser_len k := by simp [beBytes_length]
  serCompressed k := [2] ++ beBytes 32 k.val
  serCompressed_len k := by simp [beBytes_length]
  sign m k := .ok (pad 32 m, beBytes 32 k.val, 0)
  sign_len m k r s v h := by
    simp only [Res.ok.injEq, Prod.mk.injEq] at h
    obtain ⟨rfl, rfl, -⟩ := h
    exact ⟨pad_len _ _, beBytes_length _ _⟩
  sign_no_panic m k := by simp
  verify m sig k := decide (sig = pad 32 m ++ beBytes 32 k.val)

/-- Hashes whose HMAC is `n - 1` for soft steps and 1 for hardened ones. -/
def skipHashes : Hashes :=
  { hashes with
    hmacSha512 := fun _ m => beBytes 32 (if m.head? = some 0 then 1 else order - 1) ++ List.replicate 32 7
    hmacSha512_len := fun _ _ => by simp [beBytes_length] }

/-- Secret 1 at depth 0. -/
def one : XPrv where
  key := ⟨1, by decide, by decide⟩
  chaincode := ⟨List.replicate 32 9, by simp [chainCodeSize]⟩
  parentFingerprint := ⟨[0, 0, 0, 0], rfl⟩
  depth := 0
  index := 0

end KC.Toy
