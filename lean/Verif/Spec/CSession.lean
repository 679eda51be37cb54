import Verif.Spec.CErrors
/-
Where the handles of a C program come from, and which steps bring no NUL from outside.
-/
namespace KC.Spec.C
open KC.C

/-- A manager is the one of all networks of the build; a keychain was opened by it from some data with some password. -/
def Origin (W : Build) : (k : Kind) → Content k → Prop
  | .manager, c => Manager.new W.umax W.all = .ok c.1
  | .keychain, kc => ∃ M it blob pw, Manager.new W.umax W.all = .ok M ∧ M.keychainFromData W.E it blob pw = .ok kc
  | _, _ => True

/-- No text from outside that the step may quote has a NUL: that of a panic, of `serde_json`, and, for adding a network, the phrase
stored in the wallet. -/
def Clean (W : Build) : Op → Prop
  | .call _ f x _ _ _ => '\x00' ∉ x.panic.message ∧ '\x00' ∉ x.texts.serde ∧ ∀ m ∈ f.foreign W, '\x00' ∉ m
  | .delete _ => True

end KC.Spec.C
