import Verif.Model.Basic
/-
Model of keychain/src/entropy.rs: the random source behind its lock.
-/
namespace KC

/-- keychain/src/entropy.rs:9-11 `OsEntropy`: the random source with its `Mutex`.

`stream` is the whole (arbitrary) output of the source over the execution, `pos` how much of it has been drawn;
`fails k` says that the `k`-th call to the source panics; `poisoned` is the poison flag of the lock. -/
structure Rng where
  stream : Nat → UInt8
  fails : Nat → Bool
  pos : Nat
  calls : Nat
  poisoned : Bool

/-- entropy.rs:20-23 `OsEntropy::fill_bytes` for a buffer of `n` bytes.  `lock().unwrap()` panics when the lock is
poisoned; a panic of the source while the lock is held poisons it. -/
def Rng.fill (r : Rng) (n : Nat) : Option Bytes × Rng :=
  if r.poisoned then (none, r)
  else if r.fails r.calls then (none, { r with calls := r.calls + 1, poisoned := true })
  else (some ((List.range n).map fun i => r.stream (r.pos + i)),
        { r with pos := r.pos + n, calls := r.calls + 1 })

/-- A computation that may call `fill_bytes` (entropy.rs:5-7): either finished, or a call for `n` bytes together with what
is done with them.  Kept as a tree so that threads can be interleaved at their calls. -/
inductive RM (ε α : Type) where
  | ret (x : Res ε α)
  | draw (n : Nat) (k : Bytes → RM ε α)

namespace RM
variable {ε ε' α β : Type}

/-- Run alone: outcome and the source afterwards (also after a panic). -/
def run : RM ε α → Rng → Res ε α × Rng
  | ret x, r => (x, r)
  | draw n k, r =>
    match r.fill n with
    | (some b, r') => (k b).run r'
    | (none, r') => (.panic, r')

/-- `?` / sequencing; an error or panic stops. -/
def bind : RM ε α → (α → RM ε β) → RM ε β
  | ret (.ok a), f => f a
  | ret (.err e), _ => ret (.err e)
  | ret .panic, _ => ret .panic
  | draw n k, f => draw n fun b => (k b).bind f

/-- A computation that does not touch the source. -/
def lift (x : Res ε α) : RM ε α := ret x

/-- Draw `n` bytes (`fill_bytes`). -/
def fill (n : Nat) : RM ε Bytes := draw n fun b => ret (.ok b)

/-- `Result::map_err`. -/
def mapErr (f : ε → ε') : RM ε α → RM ε' α
  | ret x => ret (x.mapErr f)
  | draw n k => draw n fun b => (k b).mapErr f

instance : Monad (RM ε) where
  pure a := lift (.ok a)
  bind := bind

@[simp] theorem run_lift (x : Res ε α) (r : Rng) : (lift x).run r = (x, r) := rfl

theorem run_bind (x : RM ε α) (f : α → RM ε β) (r : Rng) :
    (x >>= f).run r = match x.run r with
      | (.ok a, r') => (f a).run r'
      | (.err e, r') => (.err e, r')
      | (.panic, r') => (.panic, r') := by
  show (RM.bind x f).run r = _
  induction x generalizing r with
  | ret x => cases x <;> rfl
  | draw n k ih =>
    simp only [RM.bind, RM.run]
    cases r.fill n with
    | mk o r' => cases o with
      | none => rfl
      | some b => exact ih b r'

theorem run_fill (n : Nat) (r : Rng) :
    (fill n : RM ε Bytes).run r = match r.fill n with
      | (some b, r') => (.ok b, r')
      | (none, r') => (.panic, r') := by
  simp only [fill, RM.run]

theorem run_mapErr (f : ε → ε') (x : RM ε α) (r : Rng) :
    (x.mapErr f).run r = ((x.run r).1.mapErr f, (x.run r).2) := by
  induction x generalizing r with
  | ret x => rfl
  | draw n k ih =>
    simp only [RM.mapErr, RM.run]
    cases r.fill n with
    | mk o r' => cases o with
      | none => rfl
      | some b => exact ih b r'

@[simp] theorem lift_ok_bind (a : α) (f : α → RM ε β) : (lift (.ok a) >>= f) = f a := rfl
@[simp] theorem lift_err_bind (e : ε) (f : α → RM ε β) : (lift (.err e) >>= f) = lift (.err e) := rfl
@[simp] theorem lift_panic_bind (f : α → RM ε β) : ((lift .panic : RM ε α) >>= f) = lift .panic := rfl

end RM
end KC
