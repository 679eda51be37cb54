import Verif.Model.Rng
/-
Threads sharing one random source (keychain/src/entropy.rs: every call of `fill_bytes` holds the lock from start to end, so
calls are atomic; everything else an operation does touches no shared mutable state: `KeychainManager` methods take `&self`).
-/
namespace KC

/-- One completed call of `fill_bytes`: by which thread, within which of its operations, and which part of the source's
output it got. -/
structure Draw where
  thread : Nat
  op : Nat
  pos : Nat
  len : Nat
deriving DecidableEq

/-- State of a system of threads. -/
structure Sys (ε α : Type) where
  rng : Rng
  /-- per thread: number of finished operations, and the remaining ones (the first may be under way). -/
  threads : Nat → Nat × List (RM ε α)
  /-- finished operations with outcome. -/
  done : List (Nat × Nat × Res ε α)
  /-- completed calls to the source, oldest first. -/
  log : List Draw

namespace Sys
variable {ε α : Type}

/-- Replace the state of thread `t`. -/
def setThread (f : Nat → Nat × List (RM ε α)) (t : Nat) (x : Nat × List (RM ε α)) : Nat → Nat × List (RM ε α) :=
  fun u => if u = t then x else f u

/-- Thread `t` takes a step: it makes its next call to the source, or finishes its operation.  A panic ends the operation
(the thread may go on: over the C interface panics are caught, keychain-c/src/utils/panic.rs:5-24). -/
def step (s : Sys ε α) (t : Nat) : Sys ε α :=
  match s.threads t with
  | (_, []) => s
  | (i, .ret x :: rest) => { s with threads := setThread s.threads t (i + 1, rest), done := s.done ++ [(t, i, x)] }
  | (i, .draw n k :: rest) =>
    match s.rng.fill n with
    | (some b, r') => { s with
        rng := r', threads := setThread s.threads t (i, k b :: rest), log := s.log ++ [⟨t, i, s.rng.pos, n⟩] }
    | (none, r') => { s with
        rng := r', threads := setThread s.threads t (i + 1, rest), done := s.done ++ [(t, i, .panic)] }

/-- Run a schedule. -/
def exec (s : Sys ε α) (sched : List Nat) : Sys ε α := sched.foldl step s

/-- Start: thread `t` is to perform the operations `progs t`, in order. -/
def start (r : Rng) (progs : Nat → List (RM ε α)) : Sys ε α := ⟨r, fun t => (0, progs t), [], []⟩

end Sys
end KC
