import Verif.Model.Secp
import Verif.Model.KeyPath
import Verif.Model.Mnemonic
/-
Model of keychain/src/key.rs, key_factory.rs, network.rs and networks/{bitcoin,ethereum,cardano}/{key,factory}.rs.
-/
namespace KC
open KC.KeyPath (Path)

/-- networks/cardano/key.rs:16-20 `KeyError` (same variants as `ed25519_bip32::PrivateKeyError`). -/
inductive Cardano.KeyError where
  | lengthInvalid (n : Nat)
  | highestBitsInvalid
  | lowestBitsInvalid
deriving DecidableEq, Repr

namespace Key

/-- The `Box<dyn std::error::Error>` inside a key error: the two built-in sources, or one of a custom network. -/
inductive Inner where
  | secp (e : Secp.KeyError)
  | cardano (e : Cardano.KeyError)
  | custom (code : Nat)
deriving DecidableEq, Repr

/-- key.rs:10-17 `Error`. -/
inductive Error where
  | invalidKeyPath (e : KeyPath.Error)
  | invalidMnemonic (e : Mnemonic.Error)
  | invalidKeySize (got good : Nat)
  | invalidKeyData (e : Inner)
  | invalidSignatureSize (got good : Nat)
  | signError (e : Inner)
deriving DecidableEq, Repr

/-- key.rs:56-63 `From<SecpKeyError>`. -/
def Error.ofSecp : Secp.KeyError → Error
  | .invalidSignature bad good => .invalidSignatureSize bad good
  | e => .invalidKeyData (.secp e)

/-- key.rs:38-40 `from_secp_sign_error`. -/
def Error.ofSecpSign (e : Secp.KeyError) : Error := .signError (.secp e)

end Key

/-- network.rs:4 `Network`: a newtype of `u32`. -/
abbrev Network := UInt32

/-- key.rs:67-82 trait `Key` as its observable behaviour (a trait object has no other).  Implementations are taken to be
functions of their arguments. -/
structure KeyObj where
  network : Network
  pubKey : Path → Res Key.Error Bytes
  sign : Bytes → Path → Res Key.Error Bytes
  verify : Bytes → Bytes → Path → Res Key.Error Bool

/-- key_factory.rs:5-8 `SeedSize`. -/
structure SeedSize where
  min : Nat
  max : Nat
deriving DecidableEq, Repr

/-- key_factory.rs:11-13. -/
def SeedSize.minWords (s : SeedSize) : Nat := s.min / 32 * 3
/-- key_factory.rs:15-17. -/
def SeedSize.maxWords (s : SeedSize) : Nat := s.max / 32 * 3

/-- key_factory.rs:20-34 trait `KeyFactory` as its observable behaviour. -/
structure Factory where
  network : Network
  seedSize : SeedSize
  keyFromData : Bytes → Res Key.Error KeyObj
  keyDataFromSeed : Bytes → Res Key.Error Bytes

/-- key_factory, common to the three networks (factory.rs:28-31): `Seed::from_slice(seed)` with the error wrapped. -/
def seedOrError (seed : Bytes) : Res Key.Error Bip39.Seed :=
  (Bip39.Seed.fromSlice seed).mapErr fun e => .invalidMnemonic (Mnemonic.Error.ofBip39 e)

namespace Bitcoin
open Secp

/-- networks/bitcoin/key.rs:14-17 `Key::from_data`. -/
def keyFromData (H : Hashes) (data : Bytes) : Res Key.Error XPrv :=
  (XPrv.fromData H data).mapErr Key.Error.ofSecp

/-- networks/bitcoin/key.rs:19-22 `data_from_seed`. -/
def dataFromSeed (H : Hashes) (seed : Bip39.Seed) : Res Key.Error Bytes := do
  let x ← (XPrv.fromSeed H seed).mapErr Key.Error.ofSecp
  Res.ofPanic (x.serialize H)

/-- networks/bitcoin/key.rs:24-45 `derive_private`. -/
def derivePrivate (H : Hashes) (C : Curve) (x : XPrv) (path : Path) : Res Key.Error XPrv :=
  if path.coin ≠ coinType then .err (.invalidKeyPath (.invalidCoin path.coin coinType))
  else if path.account < KeyPath.softUpperBound then .err (.invalidKeyPath (.invalidAccount path.account))
  else if path.change ≠ 0 ∧ path.change ≠ 1 then .err (.invalidKeyPath (.invalidChange path.change))
  else if path.address ≥ KeyPath.softUpperBound then .err (.invalidKeyPath (.invalidAddress path.address))
  else Res.mapErr Key.Error.ofSecp do
    let x ← x.derive H C path.purpose
    let x ← x.derive H C path.coin
    let x ← x.derive H C path.account
    let x ← x.derive H C path.change
    x.derive H C path.address

/-- networks/bitcoin/key.rs:48-64 `impl Key`. -/
def keyObj (H : Hashes) (C : Curve) (x : XPrv) : KeyObj where
  network := coinType
  pubKey path := (derivePrivate H C x path).map fun pk => pubSerialize C (pk.public C)
  sign data path := do
    let pk ← derivePrivate H C x path
    (pk.sign H C data).mapErr Key.Error.ofSecpSign
  verify data sig path := do
    let pk ← derivePrivate H C x path
    (pubVerify H C (pk.public C) data sig).mapErr Key.Error.ofSecp

/-- networks/bitcoin/factory.rs:15-32 `impl KeyFactory`. -/
def factory (H : Hashes) (C : Curve) : Factory where
  network := coinType
  seedSize := ⟨128, 256⟩
  keyFromData data := (keyFromData H data).map (keyObj H C)
  keyDataFromSeed seed := do
    let seed ← seedOrError seed
    dataFromSeed H seed

end Bitcoin

namespace Ethereum
open Secp

/-- networks/ethereum/key.rs:14-20 `Key::from_data`. -/
def keyFromData (H : Hashes) (C : Curve) (data : Bytes) : Res Key.Error XPrv :=
  Res.mapErr Key.Error.ofSecp do
    let x ← XPrv.fromData H data
    let x ← x.derive H C KeyPath.bip44Purpose
    x.derive H C coinType

/-- networks/ethereum/key.rs:22-25 `data_from_seed`. -/
def dataFromSeed (H : Hashes) (seed : Bip39.Seed) : Res Key.Error Bytes := do
  let x ← (XPrv.fromSeed H seed).mapErr Key.Error.ofSecp
  Res.ofPanic (x.serialize H)

/-- networks/ethereum/key.rs:27-49 `derive_private`. -/
def derivePrivate (H : Hashes) (C : Curve) (x : XPrv) (path : Path) : Res Key.Error XPrv :=
  if path.purpose ≠ KeyPath.bip44Purpose then .err (.invalidKeyPath (.invalidPurpose path.purpose KeyPath.bip44Purpose))
  else if path.coin ≠ coinType then .err (.invalidKeyPath (.invalidCoin path.coin coinType))
  else if path.account < KeyPath.softUpperBound then .err (.invalidKeyPath (.invalidAccount path.account))
  else if path.change ≠ 0 ∧ path.change ≠ 1 then .err (.invalidKeyPath (.invalidChange path.change))
  else if path.address ≥ KeyPath.softUpperBound then .err (.invalidKeyPath (.invalidAddress path.address))
  else Res.mapErr Key.Error.ofSecp do
    let x ← x.derive H C path.account
    let x ← x.derive H C path.change
    x.derive H C path.address

/-- networks/ethereum/key.rs:52-68 `impl Key`. -/
def keyObj (H : Hashes) (C : Curve) (x : XPrv) : KeyObj where
  network := coinType
  pubKey path := (derivePrivate H C x path).map fun pk => pubSerialize C (pk.public C)
  sign data path := do
    let pk ← derivePrivate H C x path
    (pk.sign H C data).mapErr Key.Error.ofSecpSign
  verify data sig path := do
    let pk ← derivePrivate H C x path
    (pubVerify H C (pk.public C) data sig).mapErr Key.Error.ofSecp

/-- networks/ethereum/factory.rs:15-32 `impl KeyFactory`. -/
def factory (H : Hashes) (C : Curve) : Factory where
  network := coinType
  seedSize := ⟨128, 256⟩
  keyFromData data := (keyFromData H C data).map (keyObj H C)
  keyDataFromSeed seed := do
    let seed ← seedOrError seed
    dataFromSeed H seed

end Ethereum

namespace Cardano

/-- `ed25519_bip32::XPRV_SIZE`, `SIGNATURE_SIZE`. -/
def xprvSize : Nat := 96
def signatureSize : Nat := 64

/-- `ed25519_bip32::XPrv`: 96 bytes. -/
abbrev XPrv := { b : Bytes // b.length = xprvSize }

/-- The operations of crate `ed25519-bip32` (scheme V2) that are not modelled further. -/
structure Ed where
  derive : XPrv → UInt32 → XPrv
  /-- `pk.public().as_ref()`. -/
  pub : XPrv → Bytes
  pub_len : ∀ x, (pub x).length = 64
  sign : XPrv → Bytes → Bytes
  sign_len : ∀ x m, (sign x m).length = signatureSize
  verify : XPrv → Bytes → Bytes → Bool

/-- `XPrv::from_bytes_verified`: bits of the scalar, first the highest, then the lowest; through networks/cardano/key.rs:34-42
`From<PrivateKeyError>`. -/
def fromBytesVerified (b : XPrv) : Res KeyError XPrv :=
  if (b.val.getD 31 0) &&& 0b11100000 ≠ 0b01000000 then .err .highestBitsInvalid
  else if (b.val.getD 0 0) &&& 0b00000111 ≠ 0 then .err .lowestBitsInvalid
  else .ok b

/-- networks/cardano/key.rs:49-63 `Key::from_data`. -/
def keyFromData (E : Ed) (data : Bytes) : Res Key.Error XPrv :=
  if data.length < xprvSize then .err (.invalidKeySize data.length xprvSize)
  else do
    let arr ← Res.ofPanic (Bytes.copyFrom xprvSize data)
    let x ← (fromBytesVerified arr).mapErr fun e => .invalidKeyData (.cardano e)
    .ok (E.derive (E.derive x KeyPath.bip44Purpose) coinType)

/-- networks/cardano/key.rs:65-83 `data_from_seed`. -/
def dataFromSeed (H : Hashes) (seed : Bip39.Seed) : Res Key.Error Bytes := do
  let front ← Res.ofPanic (Bytes.slice seed.val 0 32)
  let h := H.sha512 front
  let h := h.modify 0 (· &&& 248)
  let h := h.modify 31 (· &&& 63)
  let h := h.modify 31 (· ||| 64)
  let h := h.modify 31 (· &&& 0b11011111)
  let back ← Res.ofPanic (Bytes.slice seed.val 32 64)
  let out ← Res.ofPanic (Bytes.copyFrom xprvSize (h ++ back))
  let x ← (fromBytesVerified out).mapErr fun e => Key.Error.invalidKeyData (.cardano e)
  .ok x.val

/-- networks/cardano/key.rs:85-108 `derive_private`. -/
def derivePrivate (E : Ed) (x : XPrv) (path : Path) : Res Key.Error XPrv :=
  if path.purpose ≠ KeyPath.bip44Purpose then .err (.invalidKeyPath (.invalidPurpose path.purpose KeyPath.bip44Purpose))
  else if path.coin ≠ coinType then .err (.invalidKeyPath (.invalidCoin path.coin coinType))
  else if path.account < KeyPath.softUpperBound then .err (.invalidKeyPath (.invalidAccount path.account))
  else if path.change ≠ 0 ∧ path.change ≠ 1 then .err (.invalidKeyPath (.invalidChange path.change))
  else if path.address ≥ KeyPath.softUpperBound then .err (.invalidKeyPath (.invalidAddress path.address))
  else .ok (E.derive (E.derive (E.derive x path.account) path.change) path.address)

/-- networks/cardano/key.rs:111-139 `impl Key`. -/
def keyObj (E : Ed) (x : XPrv) : KeyObj where
  network := coinType
  pubKey path := (derivePrivate E x path).map E.pub
  sign data path := (derivePrivate E x path).map fun pk => E.sign pk data
  verify data sig path :=
    if sig.length < signatureSize then .err (.invalidSignatureSize sig.length signatureSize)
    else do
      let s ← Res.ofPanic (Bytes.copyFrom signatureSize sig)
      (derivePrivate E x path).map fun pk => E.verify pk data s.val

/-- networks/cardano/factory.rs:15-32 `impl KeyFactory`. -/
def factory (H : Hashes) (E : Ed) : Factory where
  network := coinType
  seedSize := ⟨96, 256⟩
  keyFromData data := (keyFromData E data).map (keyObj E)
  keyDataFromSeed seed := do
    let seed ← seedOrError seed
    dataFromSeed H seed

end Cardano

/-- network.rs:7-23 `Network::all`, by enabled features. -/
def Network.all (cardano ethereum bitcoin : Bool) : List Network :=
  (if cardano then [Cardano.coinType] else []) ++ (if ethereum then [Ethereum.coinType] else []) ++
  (if bitcoin then [Bitcoin.coinType] else [])

/-- networks/mod.rs:12-27 `all_networks`, by enabled features. -/
def allNetworks (H : Hashes) (C : Secp.Curve) (E : Cardano.Ed) (cardano ethereum bitcoin : Bool) : List Factory :=
  (if cardano then [Cardano.factory H E] else []) ++ (if ethereum then [Ethereum.factory H C] else []) ++
  (if bitcoin then [Bitcoin.factory H C] else [])

end KC
