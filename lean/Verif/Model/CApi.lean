import Verif.Model.Display
/-
Model of keychain-c/src: the C interface over the library, with the memory it hands out.

The caller's side of the contract is assumed: references are valid, `(pointer, length)` arguments describe readable memory and
`char *` arguments point to NUL-terminated text.  So a slice argument is its bytes and a text argument its bytes before the NUL.
Handles and structures handed out earlier are passed as the caller has them: null, live, or stale.
-/
namespace KC.C
open KC.Mnemonic (Language)

/-! ### Memory -/

/-- A pointer into library memory: null, the well-aligned non-null pointer of an empty vector, or to an allocation. -/
inductive Ptr where
  | null
  | dangling
  | to (id : Nat)
deriving DecidableEq, Repr

/-- `std::alloc::Layout`. -/
structure Layout where
  size : Nat
  align : Nat
deriving DecidableEq, Repr

/-- keychain-c/src/utils/data.rs:3-8 `DataPtr`. -/
structure DataPtr where
  ptr : Ptr
  len : Nat
deriving DecidableEq, Repr

/-- network.rs:4-6 `Network`. -/
structure CNetwork where
  val : UInt32
deriving DecidableEq, Repr

/-- network.rs:8-12. -/
def CNetwork.rust (n : CNetwork) : Network := n.val
/-- network.rs:14-18. -/
def CNetwork.ofRust (n : Network) : CNetwork := ⟨n⟩

/-- backup.rs:11-16 `KeyBackupElem`. -/
structure KeyBackupElem where
  network : CNetwork
  data : DataPtr
deriving DecidableEq, Repr

/-- What an allocation holds.  A manager holds its random source. -/
inductive Payload where
  | bytes (b : Bytes)
  | text (b : Bytes)
  | networks (l : List CNetwork)
  | elems (l : List KeyBackupElem)
  | keychain (k : Keychain)
  | manager (m : Manager) (r : Rng)

/-- An allocation. -/
structure Block where
  layout : Layout
  payload : Payload

/-- All allocations ever made, in order; `none` once freed.  Addresses are never reused, so a stale pointer stays recognisable. -/
abbrev Heap := List (Option Block)

/-- The block a pointer points to, if it is live. -/
def Heap.at (h : Heap) : Ptr → Option (Nat × Block)
  | .to i => (h[i]?.join).map fun b => (i, b)
  | _ => none

/-- Outcome of Rust code over memory; `ub` is undefined behaviour. -/
inductive Out (ε α : Type) where
  | ok (a : α) (h : Heap)
  | err (e : ε) (h : Heap)
  | panic (h : Heap)
  | ub

/-- Rust code over memory. -/
def CM (ε α : Type) := Heap → Out ε α

namespace CM
variable {ε α β : Type}

/-- Sequencing; an error or panic stops. -/
def bind (x : CM ε α) (f : α → CM ε β) : CM ε β := fun h =>
  match x h with
  | .ok a h => f a h
  | .err e h => .err e h
  | .panic h => .panic h
  | .ub => .ub

instance : Monad (CM ε) where
  pure a := fun h => .ok a h
  bind := bind

/-- Code that does not touch library memory. -/
def lift (x : Res ε α) : CM ε α := fun h =>
  match x with
  | .ok a => .ok a h
  | .err e => .err e h
  | .panic => .panic h

/-- Undefined behaviour. -/
def ub : CM ε α := fun _ => .ub

/-- Allocate; an empty layout allocates nothing. -/
def alloc (l : Layout) (p : Payload) : CM ε Ptr := fun h =>
  if l.size = 0 then .ok .dangling h else .ok (.to h.length) (h ++ [some ⟨l, p⟩])

/-- Free a block with a layout; anything but a live block of exactly that layout is undefined behaviour. -/
def dealloc (p : Ptr) (l : Layout) : CM ε Unit := fun h =>
  if l.size = 0 then .ok () h
  else match h.at p with
    | some (i, b) => if b.layout = l then .ok () (h.set i none) else .ub
    | none => .ub

end CM

/-! ### The build and the call -/

/-- What is fixed in a build of the library: target sizes, profile, the result of `all_networks()`, the external functions. -/
structure Build where
  E : Env
  umax : Nat
  profile : Profile
  all : List Factory
  /-- `size_of::<usize>()`. -/
  word : Nat
  word_ok : word = 4 ∨ word = 8
  /-- `Layout::new::<RKeychain>()`. -/
  keychain : Layout
  keychain_ok : 0 < keychain.size
  /-- `Layout::new::<RKeychainManager>()`. -/
  manager : Layout
  manager_ok : 0 < manager.size

/-- The payload of a panic: a text (`String` or `&'static str`), or anything else. -/
inductive PanicPayload where
  | text (s : Str)
  | other

/-- What differs from call to call: the payload of the panic, if there is one, the texts of external errors and the iteration orders
of the hash maps. -/
structure Ctx where
  panic : PanicPayload
  texts : Texts
  factories : Iter (Network × Factory)
  keys : Iter (Network × Bytes)
  keyObjs : Iter (Network × KeyObj)

/-! ### Strings, data -/

/-- A `char *` argument: the bytes before the NUL. -/
abbrev CText := { b : Bytes // (0 : UInt8) ∉ b }

/-- utils/string.rs:8-10 `rust_ref`: panics when it is not UTF-8. -/
def CText.rust {ε} (s : CText) : CM ε Str := CM.lift (Res.ofPanic (Json.ofUtf8 s.val))

/-- Layout of the buffer of a `CString` of `n` bytes. -/
def textLayout (n : Nat) : Layout := ⟨n + 1, 1⟩

/-- utils/string.rs:27-37 `to_cstr`: panics on an interior NUL. -/
def toCstr {ε} (s : Str) : CM ε Ptr :=
  if (0 : UInt8) ∈ Str.utf8 s then CM.lift .panic else CM.alloc (textLayout (Str.utf8 s).length) (.text (Str.utf8 s))

/-- utils/string.rs:12-15 `free`: `CString::from_raw` measures the text and frees that many bytes. -/
def charFree (p : Ptr) : CM Empty Ptr := fun h =>
  match h.at p with
  | some (_, ⟨_, .text b⟩) => (CM.dealloc p (textLayout b.length) >>= fun _ => pure .null) h
  | _ => .ub

/-- utils/string.rs:18-21 `delete_string`: by value, the caller's pointer stays as it is. -/
def deleteString (p : Ptr) : CM Empty Unit := do
  let _ ← charFree p
  pure ()

/-- Layout of a boxed slice of bytes. -/
def bytesLayout (n : Nat) : Layout := ⟨n, 1⟩

/-- utils/data.rs:30-38 `From<Vec<u8>>` (and 24-28). -/
def DataPtr.new {ε} (b : Bytes) : CM ε DataPtr := do
  let p ← CM.alloc (bytesLayout b.length) (.bytes b)
  pure ⟨p, b.length⟩

/-- utils/data.rs:15-21 `free`. -/
def DataPtr.free (d : DataPtr) : CM Empty DataPtr :=
  if d.ptr = .null then pure d
  else do
    CM.dealloc d.ptr (bytesLayout d.len)
    pure { d with ptr := .null }

/-- utils/data.rs:40-43. -/
def deleteData (d : DataPtr) : CM Empty DataPtr := d.free

/-! ### Errors -/

/-- error.rs:5-21 `ErrorType`. -/
inductive ErrorType where
  | panic | wrongPassword | notEnoughData | seedIsNotSaved | cantCalculateSeedSize | dataError | invalidSeedSize | keyDoesNotExist
  | keyAlreadyExist | networkIsNotSupported | keyError | keyPathError | mnemonicError
deriving DecidableEq, Repr

/-- error.rs:8-20: the numbers. -/
def ErrorType.code : ErrorType → Int
  | .panic => -1
  | .wrongPassword => 0
  | .notEnoughData => 1
  | .seedIsNotSaved => 2
  | .cantCalculateSeedSize => 3
  | .dataError => 4
  | .invalidSeedSize => 5
  | .keyDoesNotExist => 6
  | .keyAlreadyExist => 7
  | .networkIsNotSupported => 8
  | .keyError => 9
  | .keyPathError => 10
  | .mnemonicError => 11

/-- error.rs:23-28 `ErrorPtr`. -/
structure ErrorPtr where
  errorType : ErrorType
  message : Ptr
deriving DecidableEq, Repr

/-- error.rs:44-59 `error_type`. -/
def errorType : Error → ErrorType
  | .wrongPassword => .wrongPassword
  | .notEnoughData => .notEnoughData
  | .seedIsNotSaved => .seedIsNotSaved
  | .cantCalculateSeedSize _ _ => .cantCalculateSeedSize
  | .dataError => .dataError
  | .invalidSeedSize _ => .invalidSeedSize
  | .keyDoesNotExist _ => .keyDoesNotExist
  | .keyAlreadyExist _ => .keyAlreadyExist
  | .networkIsNotSupported _ => .networkIsNotSupported
  | .keyError _ _ => .keyError
  | .keyPathError _ => .keyPathError
  | .mnemonicError _ => .mnemonicError

/-- error.rs:61-63 `new`. -/
def ErrorPtr.new (T : Texts) (e : Error) : CM Empty ErrorPtr := do
  let m ← toCstr (e.display T)
  pure ⟨C.errorType e, m⟩

/-- error.rs:65-67 `panic`. -/
def ErrorPtr.panic (msg : Str) : CM Empty ErrorPtr := do
  let m ← toCstr msg
  pure ⟨.panic, m⟩

/-- error.rs:35-40 `free`. -/
def ErrorPtr.free (e : ErrorPtr) : CM Empty ErrorPtr :=
  if e.message = .null then pure e
  else do
    let m ← charFree e.message
    pure { e with message := m }

/-- error.rs:70-73. -/
def deleteError (e : ErrorPtr) : CM Empty ErrorPtr := e.free

/-! ### The guard around every call -/

/-- utils/panic.rs:15-20: the text for a panic; a payload that is no text is printed as `Any` (`Debug for dyn Any`). -/
def PanicPayload.message : PanicPayload → Str
  | .text s => s
  | .other => "Reason: Any".toList

/-- utils/panic.rs:9-23 `handle_exception_result`: only the body is guarded, not the making of the error. -/
def handleExceptionResult {α : Type} (x : Ctx) (body : CM Error α) : CM Empty (Except ErrorPtr α) := fun h =>
  match body h with
  | .ok a h => .ok (.ok a) h
  | .err e h => (ErrorPtr.new x.texts e >>= fun p => pure (.error p)) h
  | .panic h => (ErrorPtr.panic x.panic.message >>= fun p => pure (.error p)) h
  | .ub => .ub

/-- utils/panic.rs:5-7 `handle_exception`: the function has no error. -/
def handleException {α : Type} (x : Ctx) (body : CM Empty α) : CM Empty (Except ErrorPtr α) :=
  handleExceptionResult x fun h =>
    match body h with
    | .ok a h => .ok a h
    | .err e _ => nomatch e
    | .panic h => .panic h
    | .ub => .ub

/-- utils/result.rs:8-20 `response`: `val` and `error` are the caller's variables before; result: return value and the variables after. -/
def response {α : Type} (r : Except ErrorPtr α) (val : α) (error : ErrorPtr) : Bool × α × ErrorPtr :=
  match r with
  | .error e => (false, val, e)
  | .ok v => (true, v, error)

/-- How a call from C ends: it returns (with the caller's value and error variables after it), a panic leaves the function, or the
behaviour is undefined. -/
inductive CallOut (α : Type) where
  | ret (b : Bool) (val : α) (error : ErrorPtr) (h : Heap)
  | unwind (h : Heap)
  | ub

/-- `.response(val, error)` on the guarded body. -/
def respond {α : Type} (g : CM Empty (Except ErrorPtr α)) (val : α) (error : ErrorPtr) : Heap → CallOut α := fun h =>
  match g h with
  | .ok r h => .ret (response r val error).1 (response r val error).2.1 (response r val error).2.2 h
  | .err e _ => nomatch e
  | .panic h => .unwind h
  | .ub => .ub

/-! ### Networks -/

/-- network.rs:20-25 `NetworksPtr`. -/
structure NetworksPtr where
  ptr : Ptr
  count : Nat
deriving DecidableEq, Repr

/-- Layout of a boxed slice of `Network` (a `u32`). -/
def networksLayout (n : Nat) : Layout := ⟨4 * n, 4⟩

/-- network.rs:41-55 `From<Vec<Network>>`, `From<Vec<RNetwork>>`. -/
def NetworksPtr.new {ε} (l : List Network) : CM ε NetworksPtr := do
  let p ← CM.alloc (networksLayout l.length) (.networks (l.map CNetwork.ofRust))
  pure ⟨p, l.length⟩

/-- network.rs:32-38 `free`: as a vector of `&[Network]`, two words each. -/
def NetworksPtr.free (W : Build) (n : NetworksPtr) : CM Empty NetworksPtr :=
  if n.ptr = .null then pure n
  else do
    CM.dealloc n.ptr ⟨2 * W.word * n.count, W.word⟩
    pure { n with ptr := .null }

/-- network.rs:57-60. -/
def deleteNetworks (W : Build) (n : NetworksPtr) : CM Empty NetworksPtr := n.free W

/-! ### Key paths -/

/-- key_path.rs:8-16 `KeyPath`. -/
structure CKeyPath where
  purpose : UInt32
  coin : UInt32
  account : UInt32
  change : UInt32
  address : UInt32
deriving DecidableEq, Repr

/-- key_path.rs:18-34: as a Rust key path. -/
def CKeyPath.rust (p : CKeyPath) : KeyPath.Path := ⟨p.purpose, p.coin, p.account, p.change, p.address⟩

/-- key_path.rs:36-46. -/
def CKeyPath.ofRust (p : KeyPath.Path) : CKeyPath := ⟨p.purpose, p.coin, p.account, p.change, p.address⟩

/-- The common body of the key path functions. -/
def pathResult (r : Res KeyPath.Error KeyPath.Path) : CM Error CKeyPath := CM.lift ((r.mapErr .keyPathError).map CKeyPath.ofRust)

/-- key_path.rs:48-58 `keypath_from_string`. -/
def keypathFromString (W : Build) (x : Ctx) (s : CText) (path : CKeyPath) (error : ErrorPtr) : Heap → CallOut CKeyPath :=
  respond (handleExceptionResult x do
    let t ← s.rust
    pathResult (KeyPath.Path.from W.profile t)) path error

/-- bitcoin.rs:17-27 `keypath_bitcoin_new_bip44`. -/
def keypathBitcoinNewBip44 (W : Build) (x : Ctx) (testnet : Bool) (account change address : UInt32) (path : CKeyPath) (error : ErrorPtr) :
    Heap → CallOut CKeyPath :=
  respond (handleExceptionResult x (pathResult (Bitcoin.bip44 W.profile testnet account change address))) path error

/-- bitcoin.rs:29-39 `keypath_bitcoin_new_bip49`. -/
def keypathBitcoinNewBip49 (W : Build) (x : Ctx) (testnet : Bool) (account change address : UInt32) (path : CKeyPath) (error : ErrorPtr) :
    Heap → CallOut CKeyPath :=
  respond (handleExceptionResult x (pathResult (Bitcoin.bip49 W.profile testnet account change address))) path error

/-- bitcoin.rs:41-51 `keypath_bitcoin_new_bip84`. -/
def keypathBitcoinNewBip84 (W : Build) (x : Ctx) (testnet : Bool) (account change address : UInt32) (path : CKeyPath) (error : ErrorPtr) :
    Heap → CallOut CKeyPath :=
  respond (handleExceptionResult x (pathResult (Bitcoin.bip84 W.profile testnet account change address))) path error

/-- ethereum.rs:17-25 `keypath_ethereum_new`. -/
def keypathEthereumNew (W : Build) (x : Ctx) (account : UInt32) (path : CKeyPath) (error : ErrorPtr) : Heap → CallOut CKeyPath :=
  respond (handleExceptionResult x (pathResult (Ethereum.path W.profile account))) path error

/-- ethereum.rs:27-37 `keypath_ethereum_new_metamask`. -/
def keypathEthereumNewMetamask (x : Ctx) (account : UInt32) (path : CKeyPath) (error : ErrorPtr) : Heap → CallOut CKeyPath :=
  respond (handleExceptionResult x (pathResult (Ethereum.pathMetamask account))) path error

/-- cardano.rs:17-27 `keypath_cardano_new`. -/
def keypathCardanoNew (W : Build) (x : Ctx) (account change address : UInt32) (path : CKeyPath) (error : ErrorPtr) :
    Heap → CallOut CKeyPath :=
  respond (handleExceptionResult x (pathResult (Cardano.path W.profile account change address))) path error

/-- bitcoin.rs:10-15 `NETWORK_BITCOIN`, ethereum.rs:10-15 `NETWORK_ETHEREUM`, cardano.rs:10-15 `NETWORK_CARDANO`. -/
def networkBitcoin : CNetwork := ⟨Bitcoin.coinType⟩
def networkEthereum : CNetwork := ⟨Ethereum.coinType⟩
def networkCardano : CNetwork := ⟨Cardano.coinType⟩

/-! ### Languages -/

/-- manager.rs:37-48 `Language` (C side). -/
inductive CLanguage where
  | english | french | japanese | korean | chineseSimplified | chineseTraditional | italian | spanish
deriving DecidableEq, Repr

/-- manager.rs:40-47: the numbers. -/
def CLanguage.num : CLanguage → Int
  | .english => 0
  | .french => 1
  | .japanese => 2
  | .korean => 3
  | .chineseSimplified => 4
  | .chineseTraditional => 5
  | .italian => 6
  | .spanish => 7

/-- manager.rs:38 `derive(Primitive)`: `from_i64` of the C enum. -/
def CLanguage.fromI64 (i : Int) : Option CLanguage :=
  [CLanguage.english, .french, .japanese, .korean, .chineseSimplified, .chineseTraditional, .italian, .spanish].find? fun l => l.num = i

/-- keychain/src/mnemonic.rs:8-17: the numbers of the Rust enum. -/
def rustNum : Language → Int
  | .english => 0
  | .french => 1
  | .japanese => 2
  | .korean => 3
  | .chineseSimplified => 4
  | .chineseTraditional => 5
  | .italian => 6
  | .spanish => 7

/-- keychain/src/mnemonic.rs:7 `derive(Primitive)`: `from_i64` of the Rust enum. -/
def rustFromI64 (i : Int) : Option Language :=
  [Language.english, .french, .japanese, .korean, .chineseSimplified, .chineseTraditional, .italian, .spanish].find? fun l => rustNum l = i

/-- manager.rs:50-54 `Language::rust`. -/
def CLanguage.rust (l : CLanguage) : Option Language := rustFromI64 l.num

/-- manager.rs:56-60 `From<RLanguage>`; `none` = panic. -/
def CLanguage.ofRust (l : Language) : Option CLanguage := CLanguage.fromI64 (rustNum l)

/-! ### Handles -/

/-- manager.rs:31-35 `KeychainManagerPtr::new`. -/
def managerNew {ε} (W : Build) (M : Manager) (r : Rng) : CM ε Ptr := CM.alloc W.manager (.manager M r)

/-- manager.rs:18-20 `rust_ref`, and running one of the manager's methods, which may use its random source. -/
def onManager {ε α : Type} (p : Ptr) (f : Manager → RM ε α) : CM ε α := fun h =>
  match p with
  | .null => .panic h
  | _ =>
    match h.at p with
    | some (i, ⟨l, .manager M r⟩) => CM.lift ((f M).run r).1 (h.set i (some ⟨l, .manager M ((f M).run r).2⟩))
    | _ => .ub

/-- manager.rs:22-28 `free`, 163-166 `delete_keychain_manager`. -/
def deleteKeychainManager (W : Build) (p : Ptr) : CM Empty Ptr :=
  if p = .null then pure p
  else do
    CM.dealloc p W.manager
    pure .null

/-- keychain_c.rs:28-32 `KeychainPtr::new`. -/
def keychainNew {ε} (W : Build) (k : Keychain) : CM ε Ptr := CM.alloc W.keychain (.keychain k)

/-- keychain_c.rs:16-18 `rust_ref`. -/
def keychainRef {ε} (p : Ptr) : CM ε Keychain := fun h =>
  match p with
  | .null => .panic h
  | _ =>
    match h.at p with
    | some (_, ⟨_, .keychain k⟩) => .ok k h
    | _ => .ub

/-- keychain_c.rs:19-25 `free`, 77-80 `delete_keychain`. -/
def deleteKeychain (W : Build) (p : Ptr) : CM Empty Ptr :=
  if p = .null then pure p
  else do
    CM.dealloc p W.keychain
    pure .null

/-! ### Keychain functions -/

/-- keychain_c.rs:34-39 `keychain_networks`. -/
def keychainNetworks (x : Ctx) (keychain : Ptr) (networks : NetworksPtr) (error : ErrorPtr) : Heap → CallOut NetworksPtr :=
  respond (handleException x do
    let k ← keychainRef keychain
    NetworksPtr.new (k.networks x.keyObjs)) networks error

/-- keychain_c.rs:41-49 `keychain_pub_key`. -/
def keychainPubKey (x : Ctx) (keychain : Ptr) (network : CNetwork) (path : CKeyPath) (key : DataPtr) (error : ErrorPtr) :
    Heap → CallOut DataPtr :=
  respond (handleExceptionResult x do
    let k ← keychainRef keychain
    let b ← CM.lift (k.pubKey network.rust path.rust)
    DataPtr.new b) key error

/-- keychain_c.rs:51-61 `keychain_sign`. -/
def keychainSign (x : Ctx) (keychain : Ptr) (network : CNetwork) (data : Bytes) (path : CKeyPath) (signature : DataPtr) (error : ErrorPtr) :
    Heap → CallOut DataPtr :=
  respond (handleExceptionResult x do
    let k ← keychainRef keychain
    let b ← CM.lift (k.sign network.rust data path.rust)
    DataPtr.new b) signature error

/-- keychain_c.rs:63-75 `keychain_verify`. -/
def keychainVerify (x : Ctx) (keychain : Ptr) (network : CNetwork) (data signature : Bytes) (path : CKeyPath) (result : Bool)
    (error : ErrorPtr) : Heap → CallOut Bool :=
  respond (handleExceptionResult x do
    let k ← keychainRef keychain
    CM.lift (k.verify network.rust data signature path.rust)) result error

/-! ### Manager functions -/

/-- manager.rs:62-70 `keychain_manager_new`; `rng` is the new random source (keychain/src/entropy.rs:13-17). -/
def keychainManagerNew (W : Build) (x : Ctx) (rng : Rng) (manager : Ptr) (error : ErrorPtr) : Heap → CallOut Ptr :=
  respond (handleExceptionResult x do
    let M ← CM.lift (Manager.new W.umax W.all)
    managerNew W M rng) manager error

/-- manager.rs:72-77 `keychain_manager_has_network`. -/
def keychainManagerHasNetwork (x : Ctx) (manager : Ptr) (network : CNetwork) (has : Bool) (error : ErrorPtr) : Heap → CallOut Bool :=
  respond (handleException x (onManager manager fun M => RM.lift (.ok (M.hasNetwork network.rust)))) has error

/-- manager.rs:79-87 `keychain_manager_generate_mnemonic`. -/
def keychainManagerGenerateMnemonic (W : Build) (x : Ctx) (manager : Ptr) (lang : CLanguage) (mnemonic : Ptr) (error : ErrorPtr) :
    Heap → CallOut Ptr :=
  respond (handleExceptionResult x do
    let s ← onManager manager fun M => M.generateMnemonic W.E lang.rust
    toCstr s) mnemonic error

/-- manager.rs:89-102 `keychain_manager_keychain_data_from_seed`.  The manager's handle is used first, then the password. -/
def keychainManagerKeychainDataFromSeed (W : Build) (x : Ctx) (manager : Ptr) (seed : Bytes) (password : CText) (data : DataPtr)
    (error : ErrorPtr) : Heap → CallOut DataPtr :=
  respond (handleExceptionResult x do
    let _ ← onManager manager fun _ => RM.lift (.ok ())
    let pw ← password.rust
    let b ← onManager manager fun M => M.keychainDataFromSeed W.E x.factories x.keys seed pw
    DataPtr.new b) data error

/-- manager.rs:104-116 `keychain_manager_keychain_data_from_mnemonic`. -/
def keychainManagerKeychainDataFromMnemonic (W : Build) (x : Ctx) (manager : Ptr) (mnemonic password : CText) (lang : CLanguage)
    (data : DataPtr) (error : ErrorPtr) : Heap → CallOut DataPtr :=
  respond (handleExceptionResult x do
    let _ ← onManager manager fun _ => RM.lift (.ok ())
    let text ← mnemonic.rust
    let pw ← password.rust
    let b ← onManager manager fun M => M.keychainDataFromMnemonic W.E x.factories x.keys text pw lang.rust
    DataPtr.new b) data error

/-- manager.rs:118-131 `keychain_manager_keychain_from_data`. -/
def keychainManagerKeychainFromData (W : Build) (x : Ctx) (manager : Ptr) (data : Bytes) (password : CText) (keychain : Ptr)
    (error : ErrorPtr) : Heap → CallOut Ptr :=
  respond (handleExceptionResult x do
    let _ ← onManager manager fun _ => RM.lift (.ok ())
    let pw ← password.rust
    let k ← onManager manager fun M => RM.lift (M.keychainFromData W.E x.keys data pw)
    keychainNew W k) keychain error

/-- manager.rs:133-146 `keychain_manager_add_network`. -/
def keychainManagerAddNetwork (W : Build) (x : Ctx) (manager : Ptr) (data : Bytes) (password : CText) (network : CNetwork)
    (resp : DataPtr) (error : ErrorPtr) : Heap → CallOut DataPtr :=
  respond (handleExceptionResult x do
    let _ ← onManager manager fun _ => RM.lift (.ok ())
    let pw ← password.rust
    let b ← onManager manager fun M => M.addNetwork W.E x.keys data pw network.rust
    DataPtr.new b) resp error

/-- manager.rs:148-161 `keychain_manager_change_password`. -/
def keychainManagerChangePassword (W : Build) (x : Ctx) (manager : Ptr) (data : Bytes) (oldPassword newPassword : CText)
    (resp : DataPtr) (error : ErrorPtr) : Heap → CallOut DataPtr :=
  respond (handleExceptionResult x do
    let _ ← onManager manager fun _ => RM.lift (.ok ())
    let old ← oldPassword.rust
    let new ← newPassword.rust
    let b ← onManager manager fun _ => Manager.changePassword W.E data old new
    DataPtr.new b) resp error

/-! ### Backup functions -/

/-- backup.rs:18-23 `KeyBackupPtr`. -/
structure KeyBackupPtr where
  ptr : Ptr
  count : Nat
deriving DecidableEq, Repr

/-- Layout of a boxed slice of `KeyBackupElem`: a `u32`, padding, a pointer and a length. -/
def elemsLayout (W : Build) (n : Nat) : Layout := ⟨3 * W.word * n, W.word⟩

/-- backup.rs:44-47: the elements, their data allocated one after the other. -/
def newElems {ε} : List (Network × Bytes) → CM ε (List KeyBackupElem)
  | [] => pure []
  | (n, b) :: l => do
    let d ← DataPtr.new b
    let es ← newElems l
    pure (⟨CNetwork.ofRust n, d⟩ :: es)

/-- backup.rs:42-55 `from`. -/
def KeyBackupPtr.new {ε} (W : Build) (l : List (Network × Bytes)) : CM ε KeyBackupPtr := do
  let es ← newElems l
  let p ← CM.alloc (elemsLayout W es.length) (.elems es)
  pure ⟨p, es.length⟩

/-- backup.rs:35-37: free the data of the elements. -/
def freeElems : List KeyBackupElem → CM Empty Unit
  | [] => pure ()
  | e :: l => do
    let _ ← e.data.free
    freeElems l

/-- backup.rs:30-39 `free`: read `count` elements, free their data, then the vector. -/
def KeyBackupPtr.free (W : Build) (k : KeyBackupPtr) : CM Empty KeyBackupPtr :=
  if k.ptr = .null then pure k
  else if k.count = 0 then pure { k with ptr := .null }
  else fun h =>
    match h.at k.ptr with
    | some (_, ⟨_, .elems es⟩) =>
      if es.length = k.count then
        (do
          freeElems es
          CM.dealloc k.ptr (elemsLayout W k.count)
          pure { k with ptr := .null } : CM Empty KeyBackupPtr) h
      else .ub
    | _ => .ub

/-- backup.rs:113-116. -/
def deleteKeyBackup (W : Build) (k : KeyBackupPtr) : CM Empty KeyBackupPtr := k.free W

/-- backup.rs:57-62 `MnemonicInfoPtr`. -/
structure MnemonicInfoPtr where
  mnemonic : Ptr
  language : CLanguage
deriving DecidableEq, Repr

/-- backup.rs:64-68 `new`, after `lang.into()`. -/
def MnemonicInfoPtr.new {ε} (mnemonic : Str) (language : CLanguage) : CM ε MnemonicInfoPtr := do
  let p ← toCstr mnemonic
  pure ⟨p, language⟩

/-- backup.rs:75-80 `free`, 118-121 `delete_mnemonic_info`. -/
def deleteMnemonicInfo (m : MnemonicInfoPtr) : CM Empty MnemonicInfoPtr :=
  if m.mnemonic = .null then pure m
  else do
    let p ← charFree m.mnemonic
    pure { m with mnemonic := p }

/-- backup.rs:83-96 `keychain_manager_get_keys_data`. -/
def keychainManagerGetKeysData (W : Build) (x : Ctx) (manager : Ptr) (encrypted : Bytes) (password : CText) (data : KeyBackupPtr)
    (error : ErrorPtr) : Heap → CallOut KeyBackupPtr :=
  respond (handleExceptionResult x do
    let _ ← onManager manager fun _ => RM.lift (.ok ())
    let pw ← password.rust
    let l ← onManager manager fun _ => RM.lift (Manager.getKeysData W.E x.keys encrypted pw)
    KeyBackupPtr.new W l) data error

/-- backup.rs:98-111 `keychain_manager_retrieve_mnemonic`. -/
def keychainManagerRetrieveMnemonic (W : Build) (x : Ctx) (manager : Ptr) (data : Bytes) (password : CText)
    (mnemonic : MnemonicInfoPtr) (error : ErrorPtr) : Heap → CallOut MnemonicInfoPtr :=
  respond (handleExceptionResult x do
    let _ ← onManager manager fun _ => RM.lift (.ok ())
    let pw ← password.rust
    let m ← onManager manager fun _ => RM.lift (Manager.retrieveMnemonic W.E data pw)
    let l ← CM.lift (Res.ofPanic (CLanguage.ofRust m.2))
    MnemonicInfoPtr.new m.1 l) mnemonic error

end KC.C
