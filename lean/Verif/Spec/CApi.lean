import Verif.Model.CApi
/-
What the C interface is expected to do.
-/
namespace KC.Spec.C
open KC.C
open KC.Mnemonic (Language)

/-! ### Values handed to C -/

/-- The kinds of values the C functions hand out. -/
inductive Kind where
  | path | bool | text | data | networks | keychain | manager | backup | info | error
deriving DecidableEq, Repr

/-- Their C types. -/
@[reducible] def Val : Kind → Type
  | .path => CKeyPath
  | .bool => Bool
  | .text => Ptr
  | .data => DataPtr
  | .networks => NetworksPtr
  | .keychain => Ptr
  | .manager => Ptr
  | .backup => KeyBackupPtr
  | .info => MnemonicInfoPtr
  | .error => ErrorPtr

/-- What they stand for on the Rust side. -/
@[reducible] def Content : Kind → Type
  | .path => KeyPath.Path
  | .bool => Bool
  | .text => Str
  | .data => Bytes
  | .networks => List Network
  | .keychain => Keychain
  | .manager => Manager × Rng
  | .backup => List (Network × Bytes)
  | .info => Str × Language
  | .error => ErrorType × Str

/-- A live block. -/
def Live (h : Heap) (i : Nat) (l : Layout) (p : Payload) : Prop := h[i]? = some (some ⟨l, p⟩)

/-- C finds these bytes at the pointer, in a block of just their size (none at all when empty). -/
def BytesAt (h : Heap) (d : DataPtr) (b : Bytes) : Prop :=
  d.len = b.length ∧ ((b = [] ∧ d.ptr = .dangling) ∨ (b ≠ [] ∧ ∃ i, d.ptr = .to i ∧ Live h i ⟨b.length, 1⟩ (.bytes b)))

/-- C finds this NUL-terminated text at the pointer. -/
def TextAt (h : Heap) (p : Ptr) (s : Str) : Prop :=
  (0 : UInt8) ∉ Str.utf8 s ∧ ∃ i, p = .to i ∧ Live h i ⟨(Str.utf8 s).length + 1, 1⟩ (.text (Str.utf8 s))

/-- The elements of a key backup. -/
def ElemsAt (h : Heap) : List KeyBackupElem → List (Network × Bytes) → Prop
  | [], [] => True
  | e :: es, c :: cs => e.network.val = c.1 ∧ BytesAt h e.data c.2 ∧ ElemsAt h es cs
  | _, _ => False

/-- The value, read by C in that memory, has that content. -/
def Reads (W : Build) (h : Heap) : (k : Kind) → Val k → Content k → Prop
  | .path, v, c => v.purpose = c.purpose ∧ v.coin = c.coin ∧ v.account = c.account ∧ v.change = c.change ∧ v.address = c.address
  | .bool, v, c => v = c
  | .text, v, c => TextAt h v c
  | .data, v, c => BytesAt h v c
  | .networks, v, c => v.count = c.length ∧ ((c = [] ∧ v.ptr = .dangling) ∨
      (c ≠ [] ∧ ∃ i, v.ptr = .to i ∧ Live h i ⟨4 * c.length, 4⟩ (.networks (c.map CNetwork.mk))))
  | .keychain, v, c => ∃ i, v = .to i ∧ Live h i W.keychain (.keychain c)
  | .manager, v, c => ∃ i, v = .to i ∧ Live h i W.manager (.manager c.1 c.2)
  | .backup, v, c => v.count = c.length ∧ ((c = [] ∧ v.ptr = .dangling) ∨
      (c ≠ [] ∧ ∃ i es, v.ptr = .to i ∧ Live h i ⟨3 * W.word * c.length, W.word⟩ (.elems es) ∧ ElemsAt h es c))
  | .info, v, c => TextAt h v.mnemonic c.1 ∧ v.language.num = rustNum c.2
  | .error, v, c => v.errorType = c.1 ∧ TextAt h v.message c.2

/-- A content that C text can carry: no NUL inside. -/
def Fits : (k : Kind) → Content k → Prop
  | .text, c => (0 : UInt8) ∉ Str.utf8 c
  | .info, c => (0 : UInt8) ∉ Str.utf8 c.1
  | .error, c => (0 : UInt8) ∉ Str.utf8 c.2
  | _, _ => True

/-! ### The functions -/

/-- The C functions with a value and an error output, without their handle argument. -/
inductive Fn : Kind → Type where
  | keypathFromString (s : CText) : Fn .path
  | bitcoinBip44 (testnet : Bool) (account change address : UInt32) : Fn .path
  | bitcoinBip49 (testnet : Bool) (account change address : UInt32) : Fn .path
  | bitcoinBip84 (testnet : Bool) (account change address : UInt32) : Fn .path
  | ethereumNew (account : UInt32) : Fn .path
  | ethereumMetamask (account : UInt32) : Fn .path
  | cardanoNew (account change address : UInt32) : Fn .path
  | networks : Fn .networks
  | pubKey (network : CNetwork) (path : CKeyPath) : Fn .data
  | sign (network : CNetwork) (data : Bytes) (path : CKeyPath) : Fn .data
  | verify (network : CNetwork) (data signature : Bytes) (path : CKeyPath) : Fn .bool
  | managerNew (rng : Rng) : Fn .manager
  | hasNetwork (network : CNetwork) : Fn .bool
  | generate (lang : CLanguage) : Fn .text
  | fromSeed (seed : Bytes) (password : CText) : Fn .data
  | fromMnemonic (mnemonic password : CText) (lang : CLanguage) : Fn .data
  | open (data : Bytes) (password : CText) : Fn .keychain
  | add (data : Bytes) (password : CText) (network : CNetwork) : Fn .data
  | change (data : Bytes) (old new : CText) : Fn .data
  | keysData (data : Bytes) (password : CText) : Fn .backup
  | retrieve (data : Bytes) (password : CText) : Fn .info

/-- The handle a function takes. -/
def Fn.handle {k : Kind} : Fn k → Option Kind
  | .networks | .pubKey .. | .sign .. | .verify .. => some .keychain
  | .hasNetwork .. | .generate .. | .fromSeed .. | .fromMnemonic .. | .open .. | .add .. | .change .. | .keysData .. | .retrieve .. =>
    some .manager
  | _ => none

/-- The function as modelled. -/
def Fn.call (W : Build) (x : Ctx) (p : Ptr) : {k : Kind} → Fn k → Val k → ErrorPtr → Heap → CallOut (Val k)
  | _, .keypathFromString s, v, e => KC.C.keypathFromString W x s v e
  | _, .bitcoinBip44 t a c d, v, e => keypathBitcoinNewBip44 W x t a c d v e
  | _, .bitcoinBip49 t a c d, v, e => keypathBitcoinNewBip49 W x t a c d v e
  | _, .bitcoinBip84 t a c d, v, e => keypathBitcoinNewBip84 W x t a c d v e
  | _, .ethereumNew a, v, e => keypathEthereumNew W x a v e
  | _, .ethereumMetamask a, v, e => keypathEthereumNewMetamask x a v e
  | _, .cardanoNew a c d, v, e => keypathCardanoNew W x a c d v e
  | _, .networks, v, e => keychainNetworks x p v e
  | _, .pubKey n q, v, e => keychainPubKey x p n q v e
  | _, .sign n d q, v, e => keychainSign x p n d q v e
  | _, .verify n d s q, v, e => keychainVerify x p n d s q v e
  | _, .managerNew r, v, e => keychainManagerNew W x r v e
  | _, .hasNetwork n, v, e => keychainManagerHasNetwork x p n v e
  | _, .generate l, v, e => keychainManagerGenerateMnemonic W x p l v e
  | _, .fromSeed s pw, v, e => keychainManagerKeychainDataFromSeed W x p s pw v e
  | _, .fromMnemonic m pw l, v, e => keychainManagerKeychainDataFromMnemonic W x p m pw l v e
  | _, .open d pw, v, e => keychainManagerKeychainFromData W x p d pw v e
  | _, .add d pw n, v, e => keychainManagerAddNetwork W x p d pw n v e
  | _, .change d o n, v, e => keychainManagerChangePassword W x p d o n v e
  | _, .keysData d pw, v, e => keychainManagerGetKeysData W x p d pw v e
  | _, .retrieve d pw, v, e => keychainManagerRetrieveMnemonic W x p d pw v e

/-! ### The library call behind each function -/

/-- What a handle stands for. -/
inductive Target where
  | none
  | null
  | keychain (k : Keychain)
  | manager (m : Manager) (r : Rng)

/-- The handle `p` stands for `t`; a function that takes no handle ignores it. -/
inductive Names (W : Build) (h : Heap) (p : Ptr) : Option Kind → Target → Prop
  | no : Names W h p none .none
  | null (k) : p = .null → Names W h p (some k) .null
  | keychain (i k) : p = .to i → Live h i W.keychain (.keychain k) → Names W h p (some .keychain) (.keychain k)
  | manager (i m r) : p = .to i → Live h i W.manager (.manager m r) → Names W h p (some .manager) (.manager m r)

/-- The Rust text of a C text; otherwise the call panics. -/
def decode {α} (s : CText) (f : Str → RM Error α) : RM Error α :=
  match Json.ofUtf8 s.val with
  | some t => f t
  | none => .ret .panic

/-- A language of C as a language of Rust: same number. -/
def language : CLanguage → Language
  | .english => .english
  | .french => .french
  | .japanese => .japanese
  | .korean => .korean
  | .chineseSimplified => .chineseSimplified
  | .chineseTraditional => .chineseTraditional
  | .italian => .italian
  | .spanish => .spanish

def pathRes (r : Res KeyPath.Error KeyPath.Path) : RM Error KeyPath.Path := .ret (r.mapErr .keyPathError)

/-- On a manager handle; a null handle panics. -/
def onM {α} (f : Manager → RM Error α) : Target → RM Error α
  | .manager m _ => f m
  | _ => .ret .panic

/-- On a keychain handle. -/
def onK {α} (f : Keychain → Res Error α) : Target → RM Error α
  | .keychain k => .ret (f k)
  | _ => .ret .panic

/-- The library call behind a C function. -/
def Fn.lib (W : Build) (x : Ctx) : {k : Kind} → Fn k → Target → RM Error (Content k)
  | _, .keypathFromString s, _ => decode s fun t => pathRes (KeyPath.Path.from W.profile t)
  | _, .bitcoinBip44 t a c d, _ => pathRes (Bitcoin.bip44 W.profile t a c d)
  | _, .bitcoinBip49 t a c d, _ => pathRes (Bitcoin.bip49 W.profile t a c d)
  | _, .bitcoinBip84 t a c d, _ => pathRes (Bitcoin.bip84 W.profile t a c d)
  | _, .ethereumNew a, _ => pathRes (Ethereum.path W.profile a)
  | _, .ethereumMetamask a, _ => pathRes (Ethereum.pathMetamask a)
  | _, .cardanoNew a c d, _ => pathRes (Cardano.path W.profile a c d)
  | _, .networks, t => onK (fun k => .ok (k.networks x.keyObjs)) t
  | _, .pubKey n q, t => onK (fun k => k.pubKey n.val ⟨q.purpose, q.coin, q.account, q.change, q.address⟩) t
  | _, .sign n d q, t => onK (fun k => k.sign n.val d ⟨q.purpose, q.coin, q.account, q.change, q.address⟩) t
  | _, .verify n d s q, t => onK (fun k => k.verify n.val d s ⟨q.purpose, q.coin, q.account, q.change, q.address⟩) t
  | _, .managerNew r, _ => .ret ((Manager.new W.umax W.all).map fun m => (m, r))
  | _, .hasNetwork n, t => onM (fun m => .ret (.ok (m.hasNetwork n.val))) t
  | _, .generate l, t => onM (fun m => m.generateMnemonic W.E (some (language l))) t
  | _, .fromSeed s pw, t => onM (fun m => decode pw fun pw => m.keychainDataFromSeed W.E x.factories x.keys s pw) t
  | _, .fromMnemonic m pw l, t => onM (fun M => decode m fun m => decode pw fun pw =>
      M.keychainDataFromMnemonic W.E x.factories x.keys m pw (some (language l))) t
  | _, .open d pw, t => onM (fun m => decode pw fun pw => .ret (m.keychainFromData W.E x.keys d pw)) t
  | _, .add d pw n, t => onM (fun m => decode pw fun pw => m.addNetwork W.E x.keys d pw n.val) t
  | _, .change d o n, t => onM (fun _ => decode o fun o => decode n fun n => Manager.changePassword W.E d o n) t
  | _, .keysData d pw, t => onM (fun _ => decode pw fun pw => .ret (Manager.getKeysData W.E x.keys d pw)) t
  | _, .retrieve d pw, t => onM (fun _ => decode pw fun pw => .ret (Manager.retrieveMnemonic W.E d pw)) t

/-- The random source behind a handle; functions without a manager use none. -/
def Target.rng : Target → Rng
  | .manager _ r => r
  | _ => ⟨fun _ => 0, fun _ => false, 0, 0, false⟩

/-- Memory with the random source of the manager behind a handle replaced; nothing else changes. -/
def withRng (h : Heap) : Target → Ptr → Rng → Heap
  | .manager m _, .to i, r => h.modify i fun b => b.map fun b => { b with payload := .manager m r }
  | _, _, _ => h

end KC.Spec.C

/-! ### Ownership -/

namespace KC.Spec.C
open KC.C

/-- The block a pointer refers to. -/
def ptrIds : Ptr → List Nat
  | .to i => [i]
  | _ => []

/-- Whether the pointer refers to a live block. -/
def isLive (h : Heap) : Ptr → Bool
  | .to i => h[i]?.join.isSome
  | _ => false

/-- The data blocks of the elements of a key backup. -/
def elemIds (es : List KeyBackupElem) : List Nat := es.flatMap fun e => ptrIds e.data.ptr

/-- The blocks a value is responsible for: what deleting it has to free.  (A text pointer is not cleared by its delete function, so it
is responsible only while it is live.) -/
def owned (h : Heap) : (k : Kind) → Val k → List Nat
  | .path, _ => []
  | .bool, _ => []
  | .text, v => if isLive h v then ptrIds v else []
  | .data, v => ptrIds v.ptr
  | .networks, v => ptrIds v.ptr
  | .keychain, v => ptrIds v
  | .manager, v => ptrIds v
  | .backup, v => match v.ptr with
    | .to i => (match h[i]? with
      | some (some ⟨_, .elems es⟩) => elemIds es
      | _ => []) ++ [i]
    | _ => []
  | .info, v => ptrIds v.mnemonic
  | .error, v => ptrIds v.message

/-- The value has been deleted: its pointer is null; a text pointer still points to where the text was.  (Paths and truth values hold no
memory.) -/
def Gone (h : Heap) : (k : Kind) → Val k → Prop
  | .path, _ => True
  | .bool, _ => True
  | .text, v => ∃ i, v = .to i ∧ h[i]? = some none
  | .data, v => v.ptr = .null
  | .networks, v => v.ptr = .null
  | .keychain, v => v = .null
  | .manager, v => v = .null
  | .backup, v => v.ptr = .null
  | .info, v => v.mnemonic = .null
  | .error, v => v.message = .null

/-! ### Histories of a C program -/

/-- The delete function of each kind. -/
def delete (W : Build) : (k : Kind) → Val k → CM Empty (Val k)
  | .path, v => pure v
  | .bool, v => pure v
  | .text, v => do
    deleteString v
    pure v
  | .data, v => deleteData v
  | .networks, v => deleteNetworks W v
  | .keychain, v => deleteKeychain W v
  | .manager, v => deleteKeychainManager W v
  | .backup, v => deleteKeyBackup W v
  | .info, v => deleteMnemonicInfo v
  | .error, v => deleteError v

/-- A variable of the C program. -/
structure Var where
  kind : Kind
  val : Val kind

/-- A C program in progress: library memory, and the values it was given, in order. -/
structure State where
  heap : Heap
  vars : List Var

/-- A step of the C program: call a function (with a handle from one of its variables, and whatever its output variables held), or
delete one of its variables in place. -/
inductive Op where
  | call (k : Kind) (f : Fn k) (x : Ctx) (handle : Nat) (val : Val k) (err : ErrorPtr)
  | delete (j : Nat)

/-- The handle in a variable; null when the variable is of another kind. -/
def Var.handle (o : Option Kind) (v : Var) : Ptr :=
  match v with
  | ⟨.keychain, p⟩ => if o = some .keychain then p else .null
  | ⟨.manager, p⟩ => if o = some .manager then p else .null
  | _ => .null

def State.handle (s : State) (o : Option Kind) (j : Nat) : Ptr :=
  match s.vars[j]? with
  | some v => v.handle o
  | none => .null

/-- How a step ends. -/
inductive Step where
  | next (s : State)
  | unwound
  | ub

/-- One step.  The value or error a call hands out goes to a new variable. -/
def State.step (W : Build) (s : State) : Op → Step
  | .call k f x j val err =>
    match f.call W x (s.handle f.handle j) val err s.heap with
    | .ret true v _ h => .next ⟨h, s.vars ++ [⟨k, v⟩]⟩
    | .ret false _ e h => .next ⟨h, s.vars ++ [⟨.error, e⟩]⟩
    | .unwind _ => .unwound
    | .ub => .ub
  | .delete j =>
    match s.vars[j]? with
    | none => .next s
    | some v =>
      match delete W v.kind v.val s.heap with
      | .ok v' h => .next ⟨h, s.vars.set j ⟨v.kind, v'⟩⟩
      | .err e _ => nomatch e
      | .panic _ => .unwound
      | .ub => .ub

/-- All steps. -/
def State.run (W : Build) : List Op → State → Step
  | [], s => .next s
  | op :: ops, s =>
    match s.step W op with
    | .next s' => s'.run W ops
    | x => x

/-- The rule a C program must follow: delete a text at most once, and no network list unless it is empty or already deleted. -/
def Allowed (s : State) : Op → Prop
  | .call .. => True
  | .delete j => ∀ v, s.vars[j]? = some v →
    match v with
    | ⟨.text, p⟩ => isLive s.heap p
    | ⟨.networks, n⟩ => n.count = 0 ∨ n.ptr = .null
    | _ => True

/-- A program following the rule. -/
def Follows (W : Build) : List Op → State → Prop
  | [], _ => True
  | op :: ops, s => Allowed s op ∧ ∀ s', s.step W op = .next s' → Follows W ops s'

/-- All blocks the variables are responsible for. -/
def State.owned (s : State) : List Nat := s.vars.flatMap fun v => C.owned s.heap v.kind v.val

/-- Memory is in order: every value is as it was handed out or deleted; no block has two owners; the live blocks are exactly the owned
ones. -/
structure Sound (W : Build) (s : State) : Prop where
  held : ∀ v ∈ s.vars, (∃ c, Reads W s.heap v.kind v.val c) ∨ Gone s.heap v.kind v.val
  once : s.owned.Nodup
  exact : ∀ i, s.heap[i]?.join.isSome ↔ i ∈ s.owned

/-- Same content; a manager may get another random source, unless it is poisoned. -/
def Same : (k : Kind) → Content k → Content k → Prop
  | .manager, c, c' => c.1 = c'.1 ∧ (c.2.poisoned = true → c'.2 = c.2)
  | _, c, c' => c = c'

end KC.Spec.C
