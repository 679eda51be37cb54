/-
Common vocabulary of the model.
-/
namespace KC

/-- A byte string (`&[u8]`, `Vec<u8>`, `[u8; N]`). -/
abbrev Bytes := List UInt8

/-- A Rust `str`: a sequence of Unicode scalar values (valid UTF-8 by construction). -/
abbrev Str := List Char

/-- Outcome of a Rust function returning `Result<α, ε>` that may also panic. -/
inductive Res (ε α : Type) where
  | ok (a : α)
  | err (e : ε)
  | panic
deriving DecidableEq, Repr

namespace Res
variable {ε ε' α β : Type}

/-- The `?` operator / `and_then`; a panic propagates. -/
@[simp] def bind : Res ε α → (α → Res ε β) → Res ε β
  | ok a, f => f a
  | err e, _ => err e
  | panic, _ => panic

instance : Monad (Res ε) where
  pure := ok
  bind := Res.bind

@[simp] theorem pure_eq (a : α) : (pure a : Res ε α) = ok a := rfl
@[simp] theorem bind_ok (a : α) (f : α → Res ε β) : (ok a >>= f) = f a := rfl
@[simp] theorem bind_err (e : ε) (f : α → Res ε β) : (err e >>= f) = err e := rfl
@[simp] theorem bind_panic (f : α → Res ε β) : ((panic : Res ε α) >>= f) = panic := rfl

/-- `Result::map_err`. -/
@[simp] def mapErr (f : ε → ε') : Res ε α → Res ε' α
  | ok a => ok a
  | err e => err (f e)
  | panic => panic

/-- `Result::map`. -/
@[simp] def map (f : α → β) : Res ε α → Res ε β
  | ok a => ok (f a)
  | err e => err e
  | panic => panic

/-- `Option::ok_or`. -/
@[simp] def okOr (o : Option α) (e : ε) : Res ε α :=
  match o with
  | some a => ok a
  | none => err e

/-- A computation that may panic but has no error value, seen as a `Res`. -/
@[simp] def ofPanic : Option α → Res ε α
  | some a => ok a
  | none => panic

@[simp] def isOk : Res ε α → Bool
  | ok _ => true
  | _ => false

theorem bind_eq_ok {x : Res ε α} {f : α → Res ε β} {b : β} :
    (x >>= f) = ok b ↔ ∃ a, x = ok a ∧ f a = ok b := by
  cases x <;> simp

theorem bind_eq_panic {x : Res ε α} {f : α → Res ε β} :
    (x >>= f) = panic ↔ x = panic ∨ ∃ a, x = ok a ∧ f a = panic := by
  cases x <;> simp

theorem bind_eq_err {x : Res ε α} {f : α → Res ε β} {e : ε} :
    (x >>= f) = err e ↔ x = err e ∨ ∃ a, x = ok a ∧ f a = err e := by
  cases x <;> simp

theorem mapErr_eq_ok {x : Res ε α} {f : ε → ε'} {a : α} : x.mapErr f = ok a ↔ x = ok a := by
  cases x <;> simp

theorem mapErr_eq_panic {x : Res ε α} {f : ε → ε'} : x.mapErr f = panic ↔ x = panic := by
  cases x <;> simp

theorem mapErr_eq_err {x : Res ε α} {f : ε → ε'} {e} : x.mapErr f = err e ↔ ∃ e', x = err e' ∧ f e' = e := by
  cases x <;> simp

theorem map_eq_ok {x : Res ε α} {f : α → β} {b : β} : x.map f = ok b ↔ ∃ a, x = ok a ∧ f a = b := by
  cases x <;> simp

theorem map_eq_err {x : Res ε α} {f : α → β} {e} : x.map f = err e ↔ x = err e := by
  cases x <;> simp

theorem map_eq_panic {x : Res ε α} {f : α → β} : x.map f = panic ↔ x = panic := by
  cases x <;> simp

theorem okOr_eq_ok {o : Option α} {e : ε} {a : α} : okOr o e = ok a ↔ o = some a := by
  cases o <;> simp

theorem okOr_ne_panic {o : Option α} {e : ε} : okOr o e ≠ panic := by
  cases o <;> simp

end Res

/-- Cargo build profile: integer overflow panics in `debug`, wraps in `release`. -/
inductive Profile where
  | debug
  | release
deriving DecidableEq, Repr

end KC
