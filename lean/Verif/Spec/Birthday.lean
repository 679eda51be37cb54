import Mathlib.Data.Set.Card
import Verif.Props.Random
/-
Callers that choose each call by what came before, and repeated results.  Nothing here refers to how the library draws bytes.
-/
namespace KC.Spec.Birthday
open KC KC.Manager KC.Props

/-- Who makes the calls: sees all results so far and chooses the next call (with a manager), or stops. -/
abbrev Caller := List (Res Error Out) → Option (Manager × Call)

/-- At most `n` calls of a caller, one after the other on one random source: the results and the source afterwards. -/
def play (E : Env) (S : Caller) : Nat → List (Res Error Out) → Rng → List (Res Error Out) × Rng
  | 0, h, r => (h, r)
  | n + 1, h, r =>
    match S h with
    | none => (h, r)
    | some (M, c) => play E S n (h ++ [((c.prog E M).run r).1]) ((c.prog E M).run r).2

/-- A source that gives these bytes first, and does not fail. -/
def source (b : Bytes) : Rng := ⟨fun i => b.getD i 0, fun _ => false, 0, 0, false⟩

/-- What encrypted data begins with, salt and nonce. -/
def opening : Out → Option Bytes
  | .blob b => some (b.take 44)
  | .text _ => none

/-- A phrase. -/
def phrase : Out → Option Str
  | .blob _ => none
  | .text s => some s

/-- The marks of the results that have one, in order. -/
def marks {α : Type} (mark : Out → Option α) (h : List (Res Error Out)) : List α :=
  h.filterMap fun
    | .ok o => mark o
    | _ => none

/-- With these bytes of the source the caller gets two results with the same mark; it draws no more than these bytes, and gets at
most `k` results with a mark. -/
def Meets {α : Type} (mark : Out → Option α) (E : Env) (S : Caller) (n k : Nat) (b : Bytes) : Prop :=
  (play E S n [] (source b)).2.pos ≤ b.length ∧ (marks mark (play E S n [] (source b)).1).length ≤ k ∧
    ¬ (marks mark (play E S n [] (source b)).1).Nodup

/-- Calls of several threads on one manager under a schedule, with these bytes of the source first; `fails` says which calls to the
source fail. -/
def shared (E : Env) (M : Manager) (fails : Nat → Bool) (calls : Nat → List Call) (sched : List Nat) (b : Bytes) : Sys Error Out :=
  (Sys.start ⟨fun i => b.getD i 0, fails, 0, 0, false⟩ fun t => (calls t).map (Call.prog E M)).exec sched

/-- With these bytes of the source two of the finished calls of the threads gave the same mark (see `Meets`). -/
def MeetsShared {α : Type} (mark : Out → Option α) (E : Env) (M : Manager) (fails : Nat → Bool) (calls : Nat → List Call)
    (sched : List Nat) (k : Nat) (b : Bytes) : Prop :=
  (shared E M fails calls sched b).rng.pos ≤ b.length ∧
    (marks mark ((shared E M fails calls sched b).done.map fun x => x.2.2)).length ≤ k ∧
    ¬ (marks mark ((shared E M fails calls sched b).done.map fun x => x.2.2)).Nodup

end KC.Spec.Birthday
