import Verif.Model.PanicTexts
/-
The panic hook of the process (keychain-c/src/lib.rs:40-43, keychain-c/src/utils/panic.rs:25-27).
-/
namespace KC.C

/-- The hook that runs when a panic starts: the standard one, which prints the payload to standard error, or that of `hide_exceptions`,
which does nothing. -/
inductive Hook where
  | standard | silent
deriving DecidableEq, Repr

/-- utils/panic.rs:25-27 `hide_exceptions`, lib.rs:40-43 `keychain_init_library`: the hook before does not matter. -/
def initLibrary (_ : Hook) : Hook := .silent

/-- What a hook prints when these panics happen, by payload (the place in the code that the standard one adds is left out). -/
def Hook.prints : Hook → List PanicPayload → List PanicPayload
  | .standard, l => l
  | .silent, _ => []

/-- utils/string.rs:27-37 `to_cstr`: the panics when this text is turned into a C text. -/
def toCstrPanics (s : Str) : List PanicPayload := if (0 : UInt8) ∈ Str.utf8 s then [toCstrPanic s] else []

/-- utils/panic.rs:9-23 `handle_exception_result`: the panics during the call, in order, from how the guarded code ends: its own, and then
the one while the text of the error is made. -/
def guardPanics {α : Type} (x : Ctx) : Out Error α → List PanicPayload
  | .ok _ _ => []
  | .err e _ => toCstrPanics (e.display x.texts)
  | .panic _ => x.panic :: toCstrPanics x.panic.message
  | .ub => []

/-- utils/panic.rs:5-7 `handle_exception`: `|| Ok(func())`. -/
def plainBody {α : Type} (body : CM Empty α) : CM Error α := fun h =>
  match body h with
  | .ok a h => .ok a h
  | .err e _ => nomatch e
  | .panic h => .panic h
  | .ub => .ub

end KC.C
