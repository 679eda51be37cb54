import Verif.Spec.CApi
/-
Error codes and error texts of the C interface.
-/
namespace KC.Spec.C
open KC.C

/-- The C error code of each library error, as the constants of the C header. -/
def code : Error → Int
  | .wrongPassword => 0
  | .notEnoughData => 1
  | .seedIsNotSaved => 2
  | .cantCalculateSeedSize _ _ => 3
  | .dataError => 4
  | .invalidSeedSize _ => 5
  | .keyDoesNotExist _ => 6
  | .keyAlreadyExist _ => 7
  | .networkIsNotSupported _ => 8
  | .keyError _ _ => 9
  | .keyPathError _ => 10
  | .mnemonicError _ => 11

/-- The names of the library errors, in the order of the C codes. -/
def kinds : List (Error → Bool) :=
  [(· matches .wrongPassword), (· matches .notEnoughData), (· matches .seedIsNotSaved), (· matches .cantCalculateSeedSize ..),
   (· matches .dataError), (· matches .invalidSeedSize _), (· matches .keyDoesNotExist _), (· matches .keyAlreadyExist _),
   (· matches .networkIsNotSupported _), (· matches .keyError ..), (· matches .keyPathError _), (· matches .mnemonicError _)]

/-- The texts from outside that a key path error quotes. -/
def pathQuotes : KeyPath.Error → List Str
  | .invalidPathMarker m => [m]
  | _ => []

/-- The texts from outside that a mnemonic error quotes. -/
def mnemonicQuotes : Mnemonic.Error → List Str
  | .unsupportedWordFound w => [w]
  | _ => []

/-- The texts from outside that a key error quotes. -/
def keyQuotes (T : Texts) : Key.Error → List Str
  | .invalidKeyPath e => pathQuotes e
  | .invalidMnemonic e => mnemonicQuotes e
  | .invalidKeyData (.custom c) => [T.custom c]
  | .signError (.custom c) => [T.custom c]
  | _ => []

/-- The texts from outside that an error quotes: those of `serde_json` and of custom networks, a path marker, a word. -/
def quotes (T : Texts) : Error → List Str
  | .dataError => [T.serde]
  | .keyError _ e => keyQuotes T e
  | .mnemonicError e => mnemonicQuotes e
  | .keyPathError e => pathQuotes e
  | _ => []

/-- A key whose errors quote nothing from outside. -/
def QuietKey (k : KeyObj) : Prop :=
  (∀ p e, k.pubKey p = .err e → ∀ T, keyQuotes T e = []) ∧ (∀ m p e, k.sign m p = .err e → ∀ T, keyQuotes T e = []) ∧
  ∀ m s p e, k.verify m s p = .err e → ∀ T, keyQuotes T e = []

/-- A factory whose errors quote nothing from outside, nor do those of its keys. -/
def QuietFactory (f : Factory) : Prop :=
  (∀ d e, f.keyFromData d = .err e → ∀ T, keyQuotes T e = []) ∧ (∀ d e, f.keyDataFromSeed d = .err e → ∀ T, keyQuotes T e = []) ∧
  ∀ d k, f.keyFromData d = .ok k → QuietKey k

/-- A handle to a manager with such factories or a keychain with such keys (or none). -/
def Target.Quiet : Target → Prop
  | .none => True
  | .null => True
  | .keychain kc => ∀ n k, kc.keys.get n = some k → QuietKey k
  | .manager m _ => ∀ n f, m.getKeyFactory n = some f → QuietFactory f

/-- The phrase stored in an encrypted wallet, when it is to be used. -/
def stored (E : Env) (blob : Bytes) (pw : CText) : List Str :=
  match Json.ofUtf8 pw.val with
  | none => []
  | some pw =>
    match Manager.retrieveMnemonic E blob pw with
    | .ok m => [m.1]
    | _ => []

/-- The texts inside encrypted data that the error of a call may quote. -/
def Fn.foreign (W : Build) : {k : Kind} → Fn k → List Str
  | _, .add d pw _ => stored W.E d pw
  | _, _ => []

end KC.Spec.C
