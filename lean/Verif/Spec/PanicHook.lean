import Verif.Model.PanicHook
import Verif.Spec.CApi
/-
What a C program sees on standard error.
-/
namespace KC.Spec.C
open KC.C

/-- The guarded code of each C function (the lines are those of the functions in `Model.CApi`); `C114_body` shows that it is that. -/
def Fn.body (W : Build) (x : Ctx) (p : Ptr) : {k : Kind} → Fn k → CM Error (Val k)
  | _, .keypathFromString s => do
    let t ← s.rust
    pathResult (KeyPath.Path.from W.profile t)
  | _, .bitcoinBip44 t a c d => pathResult (Bitcoin.bip44 W.profile t a c d)
  | _, .bitcoinBip49 t a c d => pathResult (Bitcoin.bip49 W.profile t a c d)
  | _, .bitcoinBip84 t a c d => pathResult (Bitcoin.bip84 W.profile t a c d)
  | _, .ethereumNew a => pathResult (Ethereum.path W.profile a)
  | _, .ethereumMetamask a => pathResult (Ethereum.pathMetamask a)
  | _, .cardanoNew a c d => pathResult (Cardano.path W.profile a c d)
  | _, .networks => plainBody do
    let k ← keychainRef p
    NetworksPtr.new (k.networks x.keyObjs)
  | _, .pubKey n q => do
    let k ← keychainRef p
    let b ← CM.lift (k.pubKey n.rust q.rust)
    DataPtr.new b
  | _, .sign n d q => do
    let k ← keychainRef p
    let b ← CM.lift (k.sign n.rust d q.rust)
    DataPtr.new b
  | _, .verify n d s q => do
    let k ← keychainRef p
    CM.lift (k.verify n.rust d s q.rust)
  | _, .managerNew r => do
    let M ← CM.lift (Manager.new W.umax W.all)
    KC.C.managerNew W M r
  | _, .hasNetwork n => plainBody (onManager p fun M => RM.lift (.ok (M.hasNetwork n.rust)))
  | _, .generate l => do
    let s ← onManager p fun M => M.generateMnemonic W.E l.rust
    toCstr s
  | _, .fromSeed s pw => do
    let _ ← onManager p fun _ => RM.lift (.ok ())
    let pw ← pw.rust
    let b ← onManager p fun M => M.keychainDataFromSeed W.E x.factories x.keys s pw
    DataPtr.new b
  | _, .fromMnemonic m pw l => do
    let _ ← onManager p fun _ => RM.lift (.ok ())
    let text ← m.rust
    let pw ← pw.rust
    let b ← onManager p fun M => M.keychainDataFromMnemonic W.E x.factories x.keys text pw l.rust
    DataPtr.new b
  | _, .open d pw => do
    let _ ← onManager p fun _ => RM.lift (.ok ())
    let pw ← pw.rust
    let k ← onManager p fun M => RM.lift (M.keychainFromData W.E x.keys d pw)
    keychainNew W k
  | _, .add d pw n => do
    let _ ← onManager p fun _ => RM.lift (.ok ())
    let pw ← pw.rust
    let b ← onManager p fun M => M.addNetwork W.E x.keys d pw n.rust
    DataPtr.new b
  | _, .change d o n => do
    let _ ← onManager p fun _ => RM.lift (.ok ())
    let old ← o.rust
    let new ← n.rust
    let b ← onManager p fun _ => Manager.changePassword W.E d old new
    DataPtr.new b
  | _, .keysData d pw => do
    let _ ← onManager p fun _ => RM.lift (.ok ())
    let pw ← pw.rust
    let l ← onManager p fun _ => RM.lift (Manager.getKeysData W.E x.keys d pw)
    KeyBackupPtr.new W l
  | _, .retrieve d pw => do
    let _ ← onManager p fun _ => RM.lift (.ok ())
    let pw ← pw.rust
    let m ← onManager p fun _ => RM.lift (Manager.retrieveMnemonic W.E d pw)
    let l ← CM.lift (Res.ofPanic (CLanguage.ofRust m.2))
    MnemonicInfoPtr.new m.1 l

/-- The panics during a call. -/
def Fn.panics (W : Build) (x : Ctx) (p : Ptr) {k : Kind} (f : Fn k) (h : Heap) : List PanicPayload := guardPanics x (f.body W x p h)

/-- A step of a C program: `keychain_init_library`, or a call or deletion. -/
inductive HOp where
  | init
  | op (o : Op)

/-- The panics during a step. -/
def State.panics (W : Build) (s : State) : HOp → List PanicPayload
  | .op (.call _ f x j _ _) => f.panics W x (s.handle f.handle j) s.heap
  | _ => []

/-- The program, and what it prints on standard error; it ends where a panic leaves a function. -/
def log (W : Build) : List HOp → Hook → State → List PanicPayload
  | [], _, _ => []
  | .init :: ops, hook, s => log W ops (initLibrary hook) s
  | .op o :: ops, hook, s => hook.prints (s.panics W (.op o)) ++
    match s.step W o with
    | .next s' => log W ops hook s'
    | _ => []

end KC.Spec.C
