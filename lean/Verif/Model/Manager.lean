import Verif.Model.Crypt
import Verif.Model.Data
/-
Model of keychain/src/{error,keychain,manager}.rs.
-/
namespace KC

/-- keychain/src/error.rs:10-24 `Error`.  The `serde_json` error inside `DataError` is not modelled. -/
inductive Error where
  | wrongPassword
  | notEnoughData
  | seedIsNotSaved
  | cantCalculateSeedSize (min max : Nat)
  | invalidSeedSize (n : Nat)
  | keyDoesNotExist (n : Network)
  | keyAlreadyExist (n : Network)
  | networkIsNotSupported (n : Network)
  | dataError
  | keyError (n : Network) (e : Key.Error)
  | mnemonicError (e : Mnemonic.Error)
  | keyPathError (e : KeyPath.Error)
deriving DecidableEq, Repr

/-- error.rs:61-68 `From<CryptError>`. -/
def Error.ofCrypt : Crypt.DecryptError → Error
  | .notEnoughData => .notEnoughData
  | .decryptionFailed => .wrongPassword

/-- keychain/src/keychain.rs:7-9 `Keychain`. -/
structure Keychain where
  keys : NMap KeyObj

namespace Keychain

/-- keychain.rs:12-16 `new`. -/
def new (keys : List KeyObj) : Keychain := ⟨NMap.ofList (keys.map fun k => (k.network, k))⟩

/-- keychain.rs:18-20 `has_network`. -/
def hasNetwork (kc : Keychain) (n : Network) : Bool := (kc.keys.get n).isSome

/-- keychain.rs:22-24 `networks`. -/
def networks (it : Iter (Network × KeyObj)) (kc : Keychain) : List Network := (it.order kc.keys.entries).map Prod.fst

/-- keychain.rs:45-51 `_pk`. -/
def pk (kc : Keychain) (n : Network) : Res Error KeyObj := Res.okOr (kc.keys.get n) (.keyDoesNotExist n)

/-- keychain.rs:26-28 `pub_key`; `keyError` is error.rs:77-79 `from_key_error`, here and below. -/
def pubKey (kc : Keychain) (n : Network) (path : KeyPath.Path) : Res Error Bytes := do
  let k ← kc.pk n
  (k.pubKey path).mapErr (.keyError n)

/-- keychain.rs:30-32 `sign`. -/
def sign (kc : Keychain) (n : Network) (data : Bytes) (path : KeyPath.Path) : Res Error Bytes := do
  let k ← kc.pk n
  (k.sign data path).mapErr (.keyError n)

/-- keychain.rs:34-41 `verify`. -/
def verify (kc : Keychain) (n : Network) (data signature : Bytes) (path : KeyPath.Path) : Res Error Bool := do
  let k ← kc.pk n
  (k.verify data signature path).mapErr (.keyError n)

end Keychain

/-- The external functions the manager uses. -/
structure Env where
  H : Hashes
  A : Aead
  D : Base64.Decoder

/-- keychain/src/manager.rs:14-18 `KeychainManager`.  Its random source is the state of `RM`. -/
structure Manager where
  factories : NMap Factory
  seedSize : Nat

namespace Manager
open KC.Data (WalletV2 Versioned)
open KC.Mnemonic (Language)

/-- manager.rs:142-153 `calculate_seed_size`; `umax` is `usize::MAX`. -/
def calculateSeedSize (umax : Nat) (factories : List Factory) : Res Error Nat :=
  let (min, max) := factories.foldl (fun (min, max) f => (Nat.max min f.seedSize.min, Nat.min max f.seedSize.max)) (0, umax)
  if min = 0 then .err (.cantCalculateSeedSize min max)
  else if min ≥ max then .err (.cantCalculateSeedSize min max)
  else .ok min

/-- manager.rs:134-140 `with_factory_objs` (and 36-39 `with_factories`). -/
def withFactoryObjs (umax : Nat) (factories : List Factory) : Res Error Manager := do
  let seedSize ← calculateSeedSize umax factories
  .ok ⟨NMap.ofList (factories.map fun f => (f.network, f)), seedSize⟩

/-- manager.rs:21-23 `new`; `all` is the result of `all_networks()`. -/
def new (umax : Nat) (all : List Factory) : Res Error Manager := withFactoryObjs umax all

/-- manager.rs:25-34 `with_networks`. -/
def withNetworks (umax : Nat) (all : List Factory) (networks : List Network) : Res Error Manager :=
  withFactoryObjs umax (all.filter fun f => networks.any fun n => n = f.network)

/-- manager.rs:41-43 `has_network`. -/
def hasNetwork (M : Manager) (n : Network) : Bool := (M.factories.get n).isSome

/-- manager.rs:45-47 `get_key_factory`. -/
def getKeyFactory (M : Manager) (n : Network) : Option Factory := M.factories.get n

/-- manager.rs:49-53 `generate_mnemonic` (`Language::default` is English, mnemonic.rs:33-37). -/
def generateMnemonic (E : Env) (M : Manager) (language : Option Language) : RM Error Str :=
  RM.mapErr .mnemonicError do
    let ent ← Mnemonic.generateEntropy M.seedSize
    RM.lift (Mnemonic.mnemonicFromEntropy E.H ent (language.getD .english))

/-- manager.rs:155-172 `seed_from_data`. -/
def seedFromData (E : Env) (M : Manager) (seed : Option Bytes) (mnemonic : Option Str) (lang : Option Language) :
    Res Error Bytes :=
  match seed with
  | none => do
    let mnem ← Res.okOr mnemonic .seedIsNotSaved
    let lang ← Res.okOr lang .seedIsNotSaved
    (Mnemonic.seedFromMnemonic E.H mnem [] M.seedSize lang).mapErr .mnemonicError
  | some seed => if seed.length = Bip39.seedSize then .ok seed else .err (.invalidSeedSize seed.length)

/-- Serialise and encrypt: manager.rs:108-111 and 198-201 (serialisation to memory does not fail). -/
def store (E : Env) (it : Iter (Network × Bytes)) (data : WalletV2) (password : Str) : RM Error Bytes :=
  Crypt.encrypt E.H E.A (Versioned.new it data).toBytes password

/-- manager.rs:174-202 `new_keychain_data`; `itF` is the iteration over the factories, `itK` that of the serialiser over the
keys.  `collect` into a `Result` stops at the first error. -/
def newKeychainData (E : Env) (itF : Iter (Network × Factory)) (itK : Iter (Network × Bytes)) (M : Manager)
    (seed : Option Bytes) (password : Str) (mnemonic : Option Str) (lang : Option Language) : RM Error Bytes := do
  let calculated ← RM.lift (M.seedFromData E seed mnemonic lang)
  let pkeys ← RM.lift (((itF.order M.factories.entries).map Prod.snd).mapM fun f =>
    ((f.keyDataFromSeed calculated).map fun data => (f.network, data)).mapErr (.keyError f.network))
  store E itK ⟨seed, mnemonic, lang, NMap.ofList pkeys⟩ password

/-- manager.rs:55-57 `keychain_data_from_seed`. -/
def keychainDataFromSeed (E : Env) (itF : Iter (Network × Factory)) (itK : Iter (Network × Bytes)) (M : Manager)
    (seed : Bytes) (password : Str) : RM Error Bytes :=
  M.newKeychainData E itF itK (some seed) password none none

/-- manager.rs:59-64 `keychain_data_from_mnemonic`. -/
def keychainDataFromMnemonic (E : Env) (itF : Iter (Network × Factory)) (itK : Iter (Network × Bytes)) (M : Manager)
    (mnemonic password : Str) (language : Option Language) : RM Error Bytes :=
  M.newKeychainData E itF itK none password (some mnemonic) (some (language.getD .english))

/-- manager.rs:204-209 `keychain_data_from_bytes`. -/
def keychainDataFromBytes (E : Env) (bytes : Bytes) (password : Str) : Res Error WalletV2 := do
  let decrypted ← (Crypt.decrypt E.H E.A bytes password).mapErr Error.ofCrypt
  Res.okOr ((Versioned.fromBytes E.D decrypted).bind (Versioned.getData E.D)) .dataError

/-- manager.rs:66-78 `keychain_from_data`. -/
def keychainFromData (E : Env) (it : Iter (Network × Bytes)) (M : Manager) (data : Bytes) (password : Str) :
    Res Error Keychain := do
  let v2 ← keychainDataFromBytes E data password
  let keys ← ((it.order v2.keys.entries).filterMap fun e => (M.factories.get e.1).map fun f => (e.1, f, e.2)).mapM
    fun (x : Network × Factory × Bytes) => (x.2.1.keyFromData x.2.2).mapErr (Error.keyError x.1)
  .ok (Keychain.new keys)

/-- manager.rs:80-86 `change_password`. -/
def changePassword (E : Env) (encrypted : Bytes) (oldPassword newPassword : Str) : RM Error Bytes := do
  let decrypted ← RM.lift ((Crypt.decrypt E.H E.A encrypted oldPassword).mapErr Error.ofCrypt)
  Crypt.encrypt E.H E.A decrypted newPassword

/-- manager.rs:88-112 `add_network`. -/
def addNetwork (E : Env) (itK : Iter (Network × Bytes)) (M : Manager) (encrypted : Bytes) (password : Str)
    (network : Network) : RM Error Bytes := do
  let factory ← RM.lift (Res.okOr (M.factories.get network) (.networkIsNotSupported network))
  let data ← RM.lift (keychainDataFromBytes E encrypted password)
  if (data.keys.get network).isSome then RM.lift (.err (.keyAlreadyExist network))
  else do
    let seed ← RM.lift (M.seedFromData E data.seed data.mnemonic data.dictionary)
    let keyData ← RM.lift ((factory.keyDataFromSeed seed).mapErr (.keyError network))
    store E itK { data with keys := data.keys.insert network keyData } password

/-- manager.rs:114-122 `retrieve_mnemonic`. -/
def retrieveMnemonic (E : Env) (encrypted : Bytes) (password : Str) : Res Error (Str × Language) := do
  let data ← keychainDataFromBytes E encrypted password
  let mnemonic ← Res.okOr data.mnemonic .seedIsNotSaved
  let lang ← Res.okOr data.dictionary .seedIsNotSaved
  .ok (mnemonic, lang)

/-- manager.rs:124-129 `get_keys_data`. -/
def getKeysData (E : Env) (it : Iter (Network × Bytes)) (encrypted : Bytes) (password : Str) :
    Res Error (List (Network × Bytes)) :=
  (keychainDataFromBytes E encrypted password).map fun data => it.order data.keys.entries

end Manager
end KC
