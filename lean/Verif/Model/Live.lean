import Verif.Model.Keys
/-
Key paths of the caller.  `KeyPath` is a public trait (keychain/src/key_path.rs:53-59) and the keys take `&dyn KeyPath`, so the five
getters may be code of the caller and may answer differently each time (a `Cell` inside, another thread, a counter).  `Model/Keys` takes
a path as five fixed numbers, which it is for the paths of the crate and of the C interface; here the functions of
networks/{bitcoin,ethereum,cardano}/key.rs are written again with every call of a getter in its place.
-/
namespace KC

/-- key_path.rs:53-59, the getters of trait `KeyPath`. -/
inductive Part where
  | purpose | coin | account | change | address
deriving DecidableEq, Repr

/-- An implementation of trait `KeyPath` as its observable behaviour: the answer to a call after the calls made so far; `none` = panic.
(An answer may depend on anything else too; then each way it can go is one such function.) -/
abbrev Live := List Part → Part → Option UInt32

/-- A path that always answers the same: key_path.rs:126-146 `impl KeyPath for GenericKeyPath`,
networks/bitcoin/key_path.rs:82, networks/ethereum/key_path.rs:28, networks/cardano/key_path.rs:28 `impl IKeyPath for KeyPath`. -/
def Live.fixed (p : KeyPath.Path) : Live := fun _ q => some <| match q with
  | .purpose => p.purpose
  | .coin => p.coin
  | .account => p.account
  | .change => p.change
  | .address => p.address

/-- Code that calls getters: from the calls made before, the result and the calls made after. -/
def LM (α : Type) := List Part → Res Key.Error α × List Part

namespace LM
variable {α β : Type}

def bind (m : LM α) (f : α → LM β) : LM β := fun h =>
  match m h with
  | (.ok a, h) => f a h
  | (.err e, h) => (.err e, h)
  | (.panic, h) => (.panic, h)

instance : Monad LM where
  pure a := fun h => (.ok a, h)
  bind := bind

/-- A call of a getter. -/
def ask (L : Live) (q : Part) : LM UInt32 := fun h =>
  (match L h q with
   | some v => .ok v
   | none => .panic, h ++ [q])

/-- Code that calls no getter. -/
def lift (r : Res Key.Error α) : LM α := fun h => (r, h)

end LM
open LM

/-- key.rs:67-81 trait `Key` as its observable behaviour, with the path an object. -/
structure LiveKey where
  network : Network
  pubKey : Live → LM Bytes
  sign : Bytes → Live → LM Bytes
  verify : Bytes → Bytes → Live → LM Bool

/-- `if path.account() < BIP44_SOFT_UPPER_BOUND { return Err(KPError::InvalidAccount(path.account()).into()); }`:
networks/bitcoin/key.rs:28-30, networks/ethereum/key.rs:34-36, networks/cardano/key.rs:92-94. -/
def Live.checkAccount (L : Live) : LM Unit := do
  let v ← ask L .account
  if v < KeyPath.softUpperBound then do
    let w ← ask L .account
    lift (.err (.invalidKeyPath (.invalidAccount w)))
  else pure ()

/-- `if path.change() != 0 && path.change() != 1 { return Err(KPError::InvalidChange(path.change()).into()); }`:
networks/bitcoin/key.rs:31-33, networks/ethereum/key.rs:37-39, networks/cardano/key.rs:95-97.  The second call is only made if the
first answer is not 0. -/
def Live.checkChange (L : Live) : LM Unit := do
  let v ← ask L .change
  if v ≠ 0 then do
    let w ← ask L .change
    if w ≠ 1 then do
      let u ← ask L .change
      lift (.err (.invalidKeyPath (.invalidChange u)))
    else pure ()
  else pure ()

/-- `if path.address() >= BIP44_SOFT_UPPER_BOUND { return Err(KPError::InvalidAddress(path.address()).into()); }`:
networks/bitcoin/key.rs:34-36, networks/ethereum/key.rs:40-42, networks/cardano/key.rs:98-100. -/
def Live.checkAddress (L : Live) : LM Unit := do
  let v ← ask L .address
  if v ≥ KeyPath.softUpperBound then do
    let w ← ask L .address
    lift (.err (.invalidKeyPath (.invalidAddress w)))
  else pure ()

/-- `if path.coin() != COIN_TYPE { return Err(KPError::InvalidCoin(path.coin(), COIN_TYPE).into()); }`:
networks/bitcoin/key.rs:25-27, networks/ethereum/key.rs:31-33, networks/cardano/key.rs:89-91. -/
def Live.checkCoin (L : Live) (coinType : UInt32) : LM Unit := do
  let v ← ask L .coin
  if v ≠ coinType then do
    let w ← ask L .coin
    lift (.err (.invalidKeyPath (.invalidCoin w coinType)))
  else pure ()

/-- `if path.purpose() != BIP44_PURPOSE { return Err(KPError::InvalidPurpose(path.purpose(), BIP44_PURPOSE).into()); }`:
networks/ethereum/key.rs:28-30, networks/cardano/key.rs:86-88. -/
def Live.checkPurpose (L : Live) : LM Unit := do
  let v ← ask L .purpose
  if v ≠ KeyPath.bip44Purpose then do
    let w ← ask L .purpose
    lift (.err (.invalidKeyPath (.invalidPurpose w KeyPath.bip44Purpose)))
  else pure ()

namespace Bitcoin
open Secp

/-- networks/bitcoin/key.rs:24-45 `derive_private`. -/
def livePrivate (H : Hashes) (C : Curve) (x : XPrv) (L : Live) : LM XPrv := do
  L.checkCoin coinType
  L.checkAccount
  L.checkChange
  L.checkAddress
  let i ← ask L .purpose
  let x ← lift ((x.derive H C i).mapErr Key.Error.ofSecp)
  let i ← ask L .coin
  let x ← lift ((x.derive H C i).mapErr Key.Error.ofSecp)
  let i ← ask L .account
  let x ← lift ((x.derive H C i).mapErr Key.Error.ofSecp)
  let i ← ask L .change
  let x ← lift ((x.derive H C i).mapErr Key.Error.ofSecp)
  let i ← ask L .address
  lift ((x.derive H C i).mapErr Key.Error.ofSecp)

/-- networks/bitcoin/key.rs:48-64 `impl Key`. -/
def liveKey (H : Hashes) (C : Curve) (x : XPrv) : LiveKey where
  network := coinType
  pubKey L := do
    let pk ← livePrivate H C x L
    lift (.ok (pubSerialize C (pk.public C)))
  sign data L := do
    let pk ← livePrivate H C x L
    lift ((pk.sign H C data).mapErr Key.Error.ofSecpSign)
  verify data sig L := do
    let pk ← livePrivate H C x L
    lift ((pubVerify H C (pk.public C) data sig).mapErr Key.Error.ofSecp)

/-- networks/bitcoin/factory.rs:24-26 `key_from_data`. -/
def liveFromData (H : Hashes) (C : Curve) (data : Bytes) : Res Key.Error LiveKey := (keyFromData H data).map (liveKey H C)

end Bitcoin

namespace Ethereum
open Secp

/-- networks/ethereum/key.rs:27-49 `derive_private`. -/
def livePrivate (H : Hashes) (C : Curve) (x : XPrv) (L : Live) : LM XPrv := do
  L.checkPurpose
  L.checkCoin coinType
  L.checkAccount
  L.checkChange
  L.checkAddress
  let i ← ask L .account
  let x ← lift ((x.derive H C i).mapErr Key.Error.ofSecp)
  let i ← ask L .change
  let x ← lift ((x.derive H C i).mapErr Key.Error.ofSecp)
  let i ← ask L .address
  lift ((x.derive H C i).mapErr Key.Error.ofSecp)

/-- networks/ethereum/key.rs:52-68 `impl Key`. -/
def liveKey (H : Hashes) (C : Curve) (x : XPrv) : LiveKey where
  network := coinType
  pubKey L := do
    let pk ← livePrivate H C x L
    lift (.ok (pubSerialize C (pk.public C)))
  sign data L := do
    let pk ← livePrivate H C x L
    lift ((pk.sign H C data).mapErr Key.Error.ofSecpSign)
  verify data sig L := do
    let pk ← livePrivate H C x L
    lift ((pubVerify H C (pk.public C) data sig).mapErr Key.Error.ofSecp)

/-- networks/ethereum/factory.rs:24-26 `key_from_data`. -/
def liveFromData (H : Hashes) (C : Curve) (data : Bytes) : Res Key.Error LiveKey := (keyFromData H C data).map (liveKey H C)

end Ethereum

namespace Cardano

/-- networks/cardano/key.rs:85-108 `derive_private`. -/
def livePrivate (E : Ed) (x : XPrv) (L : Live) : LM XPrv := do
  L.checkPurpose
  L.checkCoin coinType
  L.checkAccount
  L.checkChange
  L.checkAddress
  let i ← ask L .account
  let j ← ask L .change
  let k ← ask L .address
  lift (.ok (E.derive (E.derive (E.derive x i) j) k))

/-- networks/cardano/key.rs:111-139 `impl Key`. -/
def liveKey (E : Ed) (x : XPrv) : LiveKey where
  network := coinType
  pubKey L := do
    let pk ← livePrivate E x L
    lift (.ok (E.pub pk))
  sign data L := do
    let pk ← livePrivate E x L
    lift (.ok (E.sign pk data))
  verify data sig L :=
    if sig.length < signatureSize then lift (.err (.invalidSignatureSize sig.length signatureSize))
    else do
      let s ← lift (Res.ofPanic (Bytes.copyFrom signatureSize sig))
      let pk ← livePrivate E x L
      lift (.ok (E.verify pk data s.val))

/-- networks/cardano/factory.rs:24-26 `key_from_data`. -/
def liveFromData (E : Ed) (data : Bytes) : Res Key.Error LiveKey := (keyFromData E data).map (liveKey E)

end Cardano

end KC
