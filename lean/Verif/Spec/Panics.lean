import Verif.Spec.CSession
import Verif.Spec.Keys
import Verif.Spec.KeyPath
import Verif.Spec.Wallet
/-
When the library panics: the complete list of causes, call by call.
-/
namespace KC.Spec.C
open KC.C

/-- The text arguments of a call. -/
def Fn.texts : {k : Kind} → Fn k → List CText
  | _, .keypathFromString s => [s]
  | _, .fromSeed _ pw => [pw]
  | _, .fromMnemonic m pw _ => [m, pw]
  | _, .open _ pw => [pw]
  | _, .add _ pw _ => [pw]
  | _, .change _ old new => [old, new]
  | _, .keysData _ pw => [pw]
  | _, .retrieve _ pw => [pw]
  | _, _ => []

/-- Bytes that are not the UTF-8 form of any text. -/
def NotUtf8 (s : CText) : Prop := ∀ t : Str, Str.utf8 t ≠ s.val

/-- A path text whose parts before are fine and which then has a part that ends in a character of more than one byte or, in a debug
build, a hardened number from 2^31. -/
def TrapPath (debug : Bool) (path : Str) : Prop :=
  ∃ m x t pre post, path = slashed (m :: (pre ++ x :: post)) ∧ (∀ s ∈ m :: (pre ++ x :: post), '/' ∉ s) ∧
    (pre ++ x :: post).length = 5 ∧ Trimmed m ['m'] ∧ (∀ s ∈ pre, ∃ v, Component debug s v) ∧ Trimmed x t ∧
    ((∃ c, t.getLast? = some c ∧ c.utf8Size ≠ 1) ∨ (debug = true ∧ ∃ n, PartText t true n ∧ 2 ^ 31 ≤ n))

/-- The Cardano network number. -/
def cardano : Network := 0x80000717

/-- The causes that depend on the call: a path text, a Cardano signature of more than 64 bytes. -/
def Fn.Trap (debug : Bool) : {k : Kind} → Fn k → Target → Prop
  | _, .keypathFromString s, _ => ∃ t, Str.utf8 t = s.val ∧ TrapPath debug t
  | _, .verify n _ sig _, .keychain kc => n.val = cardano ∧ kc.hasNetwork cardano = true ∧ 64 < sig.length
  | _, _, _ => False

/-- The call that opens a wallet. -/
def Fn.opens : {k : Kind} → Fn k → Bool
  | _, .open _ _ => true
  | _, _ => false

end KC.Spec.C

namespace KC.Spec.Wallet

/-- A Cardano key of more than 96 bytes in a wallet, for a manager that knows Cardano. -/
def LongKey (M : Manager) (c : Content) : Prop :=
  M.hasNetwork C.cardano = true ∧ ∃ d, c.keys C.cardano = some d ∧ 96 < d.length

end KC.Spec.Wallet
