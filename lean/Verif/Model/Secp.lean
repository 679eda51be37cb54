import Verif.Model.Bytes
import Verif.Model.Prims
import Verif.Model.Bip39
/-
Model of the crate secp256k1_bip32 (src/error.rs, src/private.rs, src/public.rs).
-/
namespace KC.Secp
open KC.Bytes

/-- The order of the secp256k1 group (crate `libsecp256k1`). -/
def order : Nat := 0xFFFFFFFFFFFFFFFFFFFFFFFFFFFFFFFEBAAEDCE6AF48A03BBFD25E8CD0364141

/-- `secp256k1::Error`. -/
inductive SecError where
  | invalidSignature | invalidPublicKey | invalidSecretKey | invalidRecoveryId | invalidMessage | invalidInputLength
  | tweakOutOfRange
deriving DecidableEq, Repr

/-- `secp256k1::SecretKey`: a non-zero scalar. -/
abbrev Secret := { k : Nat // 0 < k ∧ k < order }

/-- The operations of crate `libsecp256k1` that are not modelled further: public keys, signing, verification.
`sign` takes a 32-byte message and gives `r`, `s` (32 bytes each) and the recovery id; `verify` takes message, the 64 bytes of a
signature (parsing 64 bytes never fails) and the public key. -/
structure Curve where
  Pub : Type
  pub : Secret → Pub
  ser : Pub → Bytes
  ser_len : ∀ p, (ser p).length = 65
  serCompressed : Pub → Bytes
  serCompressed_len : ∀ p, (serCompressed p).length = 33
  sign : Bytes → Secret → Res SecError (Bytes × Bytes × UInt8)
  sign_len : ∀ m k r s v, sign m k = .ok (r, s, v) → r.length = 32 ∧ s.length = 32
  sign_no_panic : ∀ m k, sign m k ≠ .panic
  verify : Bytes → Bytes → Pub → Bool

/-- error.rs:5-17 `KeyError`. -/
inductive KeyError where
  | invalidSignature (bad good : Nat)
  | invalidPublicKey | invalidSecretKey | invalidRecoveryId | invalidMessage | invalidInputLength | tweakOutOfRange
  | invalidDataSize (bad good : Nat)
  | invalidEntropySize (n : Nat)
  | deriveDepthTooBig
  | internalError
deriving DecidableEq, Repr

/-- error.rs:42-54 `From<SecError>`. -/
def KeyError.ofSec : SecError → KeyError
  | .invalidSignature => .invalidSignature 0 64
  | .invalidPublicKey => .invalidPublicKey
  | .invalidSecretKey => .invalidSecretKey
  | .invalidRecoveryId => .invalidRecoveryId
  | .invalidMessage => .invalidMessage
  | .invalidInputLength => .invalidInputLength
  | .tweakOutOfRange => .tweakOutOfRange

/-- `SecretKey::parse_slice`: 32 bytes, value in 1..n-1. -/
def parseSecret (b : Bytes) : Res SecError Secret :=
  if b.length ≠ 32 then .err .invalidInputLength
  else if h : 0 < beNat b ∧ beNat b < order then .ok ⟨beNat b, h⟩
  else .err .invalidSecretKey

/-- `SecretKey::serialize`: 32 bytes, big-endian. -/
def serSecret (k : Secret) : Bytes := beBytes 32 k.val

/-- `SecretKey::tweak_add_assign`: sum modulo the order, an error when zero. -/
def tweakAdd (k t : Secret) : Res SecError Secret :=
  if h : 0 < (k.val + t.val) % order then .ok ⟨(k.val + t.val) % order, h, Nat.mod_lt _ (by decide)⟩
  else .err .tweakOutOfRange

/-- private.rs:14 `HMAC_KEY` = b"Bitcoin seed". -/
def hmacKey : Bytes := [66, 105, 116, 99, 111, 105, 110, 32, 115, 101, 101, 100]
/-- private.rs:15. -/
def softUpperBound : UInt32 := 0x80000000

/- private.rs:17-42 `data_layout`. -/
def depthSize : Nat := 1
def fingerprintSize : Nat := 4
def indexSize : Nat := 4
def chainCodeSize : Nat := 32
def keySize : Nat := 32
def checksumSize : Nat := 4
def keyDataSize : Nat := depthSize + fingerprintSize + indexSize + chainCodeSize + keySize + checksumSize
def entropySize : Nat := chainCodeSize + keySize
def depthStart : Nat := 0
def depthEnd : Nat := depthStart + depthSize
def fingerprintStart : Nat := depthEnd
def fingerprintEnd : Nat := fingerprintStart + fingerprintSize
def indexStart : Nat := fingerprintEnd
def indexEnd : Nat := indexStart + indexSize
def chainCodeStart : Nat := indexEnd
def chainCodeEnd : Nat := chainCodeStart + chainCodeSize
def keyStart : Nat := chainCodeEnd
def keyEnd : Nat := keyStart + keySize
def checksumStart : Nat := keyEnd
def checksumEnd : Nat := checksumStart + checksumSize

/-- private.rs:44-50 `XPrv`. -/
structure XPrv where
  key : Secret
  chaincode : { b : Bytes // b.length = chainCodeSize }
  parentFingerprint : { b : Bytes // b.length = fingerprintSize }
  depth : UInt8
  index : UInt32
deriving DecidableEq

/-- private.rs:53-82 `XPrv::from_data`. -/
def XPrv.fromData (H : Hashes) (data : Bytes) : Res KeyError XPrv :=
  if data.length ≠ keyDataSize then .err (.invalidDataSize data.length keyDataSize)
  else do
    let body ← Res.ofPanic (slice data depthStart keyEnd)
    let hash := H.sha256 body
    let hash := H.sha256 hash
    let got ← Res.ofPanic (slice data checksumStart checksumEnd)
    let want ← Res.ofPanic (slice hash 0 checksumSize)
    if got ≠ want then .err .invalidSecretKey
    else do
      let depth ← Res.ofPanic data[depthStart]?
      let fp ← Res.ofPanic (slice data fingerprintStart fingerprintEnd)
      let parentFingerprint ← Res.ofPanic (copyFrom fingerprintSize fp)
      let ix ← Res.ofPanic (slice data indexStart indexEnd)
      let index := UInt32.ofNat (beNat ix)
      let cc ← Res.ofPanic (slice data chainCodeStart chainCodeEnd)
      let chaincode ← Res.ofPanic (copyFrom chainCodeSize cc)
      let k ← Res.ofPanic (slice data keyStart keyEnd)
      let key ← (parseSecret k).mapErr .ofSec
      .ok { depth, parentFingerprint, index, chaincode, key }

/-- private.rs:84-109 `XPrv::from_seed`. -/
def XPrv.fromSeed (H : Hashes) (seed : Bip39.Seed) : Res KeyError XPrv :=
  let entropy := H.hmacSha512 hmacKey seed.val
  if entropy.length < entropySize then .err (.invalidEntropySize entropy.length)
  else do
    let il ← Res.ofPanic (slice entropy 0 keySize)
    let ir ← Res.ofPanic (slice entropy keySize (keySize + chainCodeSize))
    let chaincode ← Res.ofPanic (copyFrom chainCodeSize ir)
    let key ← (parseSecret il).mapErr .ofSec
    .ok { key, chaincode, depth := 0, index := 0, parentFingerprint := ⟨[0, 0, 0, 0], rfl⟩ }

/-- private.rs:111-113 `XPrv::public`. -/
def XPrv.public (C : Curve) (x : XPrv) : C.Pub := C.pub x.key

/-- private.rs:115-137 `XPrv::serialize`; `none` = panic. -/
def XPrv.serialize (H : Hashes) (x : XPrv) : Option Bytes := do
  let data := [x.depth] ++ x.parentFingerprint.val ++ beBytes 4 x.index.toNat ++ x.chaincode.val ++ serSecret x.key
  let hash := H.sha256 data
  let hash := H.sha256 hash
  let cs ← slice hash 0 checksumSize
  some (data ++ cs)

/-- private.rs:139-159 `XPrv::sign`. -/
def XPrv.sign (H : Hashes) (C : Curve) (x : XPrv) (data : Bytes) : Res KeyError Bytes := do
  let (r, s, recId) ← (C.sign (H.keccak256 data) x.key).mapErr .ofSec
  if recId ≠ 0 ∧ recId ≠ 1 then .err .invalidRecoveryId
  else .ok (r ++ s ++ [recId])

/-- public.rs:42-44 `compressed_sha256`, with 46-52 `_sha256`. -/
def compressedSha256 (H : Hashes) (C : Curve) (p : C.Pub) : Bytes := H.sha256 (C.serCompressed p)

/-- private.rs:161-223 `XPrv::derive`.  Writing into a `Vec` cannot fail, so the `InternalError` branches are left out. -/
def XPrv.derive (H : Hashes) (C : Curve) (x : XPrv) (index : UInt32) : Res KeyError XPrv :=
  if x.depth = 255 then .err .deriveDepthTooBig
  else
    let hardened : Bool := index ≥ softUpperBound
    let input :=
      if hardened then [0x00] ++ serSecret x.key ++ beBytes 4 index.toNat
      else C.serCompressed (x.public C) ++ beBytes 4 index.toNat
    let entropy := H.hmacSha512 x.chaincode.val input
    if entropy.length < entropySize then .err (.invalidEntropySize entropy.length)
    else do
      let ir ← Res.ofPanic (slice entropy keySize (keySize + chainCodeSize))
      let chaincode ← Res.ofPanic (copyFrom chainCodeSize ir)
      let il ← Res.ofPanic (slice entropy 0 keySize)
      let tweak ← (parseSecret il).mapErr .ofSec
      match tweakAdd x.key tweak with
      | .ok newpk => do
        let h160 := H.ripemd160 (compressedSha256 H C (x.public C))
        let fp ← Res.ofPanic (slice h160 0 fingerprintSize)
        let parentFingerprint ← Res.ofPanic (copyFrom fingerprintSize fp)
        .ok { key := newpk, depth := x.depth + 1, chaincode, index, parentFingerprint }
      | _ =>
        if h : (hardened ∧ index < 4294967295) ∨ (¬ hardened ∧ index < softUpperBound) then
          XPrv.derive H C x (index + 1)
        else .err .tweakOutOfRange
termination_by 4294967296 - index.toNat
decreasing_by
  have h1 : index.toNat < 4294967295 := by
    rcases h with ⟨-, h⟩ | ⟨-, h⟩
    · exact h
    · have : index.toNat < 2147483648 := h
      omega
  have : (index + 1).toNat = index.toNat + 1 := by
    rw [UInt32.toNat_add]
    show (index.toNat + 1) % 4294967296 = _
    omega
  omega

/-- public.rs:14-16 `XPub::serialize`; 10-12 `new` wraps the point. -/
def pubSerialize (C : Curve) (p : C.Pub) : Bytes := C.ser p

/-- public.rs:18-20 `XPub::serialize_compressed`. -/
def pubSerializeCompressed (C : Curve) (p : C.Pub) : Bytes := C.serCompressed p

/-- public.rs:38-40 `XPub::sha256`, with 46-52 `_sha256`. -/
def pubSha256 (H : Hashes) (C : Curve) (p : C.Pub) : Bytes := H.sha256 (C.ser p)

/-- public.rs:22-36 `XPub::verify`. -/
def pubVerify (H : Hashes) (C : Curve) (p : C.Pub) (data sig : Bytes) : Res KeyError Bool :=
  if sig.length ≠ 64 then .err (.invalidSignature sig.length 64)
  else .ok (C.verify (H.keccak256 data) sig p)

end KC.Secp
