import Verif.Model.Secp
/-
BIP-32 private derivation and the 77-byte key layout, stated without the model's functions.  From the model only the data types
(`XPrv`, and the records of external functions) are used.
-/
namespace KC.Spec.Bip32
open KC.Secp (XPrv Curve)

/-- Order of the secp256k1 group, as 2^256 minus its distance. -/
def n : Nat := 2 ^ 256 - 432420386565659656852420866394968145599

/-- The number written by `b`, first byte most significant. -/
def be : Bytes → Nat
  | [] => 0
  | x :: b => x.toNat * 256 ^ b.length + be b

/-- `b` is the big-endian form of `x` in `k` bytes. -/
def IsBe (k x : Nat) (b : Bytes) : Prop := b.length = k ∧ be b = x

/-- `b` is the 77-byte form of `x`: depth, fingerprint, index, chain code, secret, checksum. -/
def Layout (H : Hashes) (x : XPrv) (b : Bytes) : Prop :=
  ∃ fp ix cc k cs : Bytes,
    b = [x.depth] ++ fp ++ ix ++ cc ++ k ++ cs ∧
    fp.length = 4 ∧ fp = x.parentFingerprint.val ∧
    IsBe 4 x.index.toNat ix ∧
    cc.length = 32 ∧ cc = x.chaincode.val ∧
    IsBe 32 x.key.val k ∧
    cs.length = 4 ∧ cs <+: H.sha256 (H.sha256 ([x.depth] ++ fp ++ ix ++ cc ++ k))

/-- `I` is the 64-byte HMAC of derivation step `i` from `x`: keyed with the chain code, over `00 ‖ k ‖ i` from 2^31 on, and over the
compressed public key and `i` below. -/
def StepHash (H : Hashes) (C : Curve) (x : XPrv) (i : UInt32) (I : Bytes) : Prop :=
  ∃ k ib : Bytes, IsBe 32 x.key.val k ∧ IsBe 4 i.toNat ib ∧
    ((2 ^ 31 ≤ i.toNat ∧ I = H.hmacSha512 x.chaincode.val ([0] ++ k ++ ib)) ∨
     (i.toNat < 2 ^ 31 ∧ I = H.hmacSha512 x.chaincode.val (C.serCompressed (C.pub x.key) ++ ib)))

/-- `y` is the BIP-32 child number `i` of `x`. -/
def Child (H : Hashes) (C : Curve) (x : XPrv) (i : UInt32) (y : XPrv) : Prop :=
  ∃ il ir : Bytes, il.length = 32 ∧ ir.length = 32 ∧ StepHash H C x i (il ++ ir) ∧
    0 < be il ∧ be il < n ∧
    y.key.val = (be il + x.key.val) % n ∧
    y.chaincode.val = ir ∧
    y.depth.toNat = x.depth.toNat + 1 ∧
    y.index = i ∧
    y.parentFingerprint.val <+: H.ripemd160 (H.sha256 (C.serCompressed (C.pub x.key)))

/-- Child number `i` of `x` would have secret zero. -/
def ZeroSum (H : Hashes) (C : Curve) (x : XPrv) (i : UInt32) : Prop :=
  ∃ il ir : Bytes, il.length = 32 ∧ ir.length = 32 ∧ StepHash H C x i (il ++ ir) ∧
    0 < be il ∧ be il < n ∧ (be il + x.key.val) % n = 0

/-- The left half of the HMAC is no secret. -/
def BadLeft (H : Hashes) (C : Curve) (x : XPrv) (i : UInt32) : Prop :=
  ∃ il ir : Bytes, il.length = 32 ∧ ir.length = 32 ∧ StepHash H C x i (il ++ ir) ∧ (be il = 0 ∨ n ≤ be il)

/-- What `derive(i)` gives: the child of the first number from `i` on whose secret is not zero. -/
def Derived (H : Hashes) (C : Curve) (x : XPrv) (i : UInt32) (y : XPrv) : Prop :=
  x.depth.toNat < 255 ∧ ∃ j, i.toNat ≤ j.toNat ∧ (∀ l : UInt32, i.toNat ≤ l.toNat → l.toNat < j.toNat → ZeroSum H C x l) ∧
    Child H C x j y

/-- Derivation along a path. -/
inductive Walk (H : Hashes) (C : Curve) : XPrv → List UInt32 → XPrv → Prop
  | nil (x) : Walk H C x [] x
  | cons {x i y is z} : Derived H C x i y → Walk H C y is z → Walk H C x (i :: is) z

/-- The root key of a seed: HMAC keyed with "Bitcoin seed". -/
def Root (H : Hashes) (seed : Bytes) (x : XPrv) : Prop :=
  ∃ il ir : Bytes, il.length = 32 ∧ ir.length = 32 ∧
    H.hmacSha512 ("Bitcoin seed".toList.map fun c => UInt8.ofNat c.toNat) seed = il ++ ir ∧
    IsBe 32 x.key.val il ∧ x.chaincode.val = ir ∧ x.depth = 0 ∧ x.index = 0 ∧ x.parentFingerprint.val = List.replicate 4 0

end KC.Spec.Bip32
