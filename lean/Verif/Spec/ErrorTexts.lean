import Verif.Spec.CErrors
/-
Errors with a text of their own.
-/
namespace KC.Spec.C
open KC.C

/-- Errors of the three built-in networks with a text of their own: no error of a custom network, whose text is anything, and no unknown
word reported as unknown error (the library reports unknown words as `UnsupportedWordFound`). -/
def Telling : Error → Prop
  | .keyError _ (.invalidKeyData e) => ∀ c, e ≠ .custom c
  | .keyError _ (.signError e) => ∀ c, e ≠ .custom c
  | .keyError _ (.invalidMnemonic e) => ∀ w, e ≠ .unknownError (.languageError w)
  | .mnemonicError e => ∀ w, e ≠ .unknownError (.languageError w)
  | _ => True

/-- The same of the error of a key. -/
def KeyTelling (e : Key.Error) : Prop := ∀ n, Telling (.keyError n e)

/-- A key with only such errors. -/
def TellingKey (k : KeyObj) : Prop :=
  (∀ p e, k.pubKey p = .err e → KeyTelling e) ∧ (∀ m p e, k.sign m p = .err e → KeyTelling e) ∧
  ∀ m s p e, k.verify m s p = .err e → KeyTelling e

/-- A factory with only such errors, and such keys. -/
def TellingFactory (f : Factory) : Prop :=
  (∀ d e, f.keyFromData d = .err e → KeyTelling e) ∧ (∀ d e, f.keyDataFromSeed d = .err e → KeyTelling e) ∧
  ∀ d k, f.keyFromData d = .ok k → TellingKey k

/-- A handle to a manager with such factories or a keychain with such keys (or none). -/
def Target.Telling : Target → Prop
  | .none => True
  | .null => True
  | .keychain kc => ∀ n k, kc.keys.get n = some k → TellingKey k
  | .manager m _ => ∀ n f, m.getKeyFactory n = some f → TellingFactory f

end KC.Spec.C
