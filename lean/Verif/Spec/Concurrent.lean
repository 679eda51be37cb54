import Verif.Props.Random
/-
Programs of many threads over many managers, in which any thread may begin any call at any time (so also one with what other threads have
got).  A call of a manager touches shared state only when it draws from the manager's random source, which is behind a lock
(keychain/src/entropy.rs:20-23); the other methods take `&self` and read only.
-/
namespace KC.Spec.Conc
open KC.Props (Call Out)

/-- A call under way: its number, its manager, and what remains to be done. -/
structure Busy where
  id : Nat
  mgr : Nat
  call : Call
  todo : RM Error Out

/-- A finished call. -/
structure Entry where
  id : Nat
  mgr : Nat
  call : Call
  res : Res Error Out

/-- All threads and managers.  A draw is logged with its manager. -/
structure State where
  src : Nat → Rng
  busy : Nat → Option Busy
  next : Nat
  done : List Entry
  draws : List (Nat × Draw)

/-- Replace one value of a function. -/
def upd {α : Type} (f : Nat → α) (t : Nat) (x : α) : Nat → α := fun u => if u = t then x else f u

/-- A step of thread `t`: it begins a call, draws, or ends the call. -/
inductive Step (E : Env) (M : Nat → Manager) (t : Nat) : State → State → Prop
  | begin (s m c) : s.busy t = none →
      Step E M t s { s with busy := upd s.busy t (some ⟨s.next, m, c, c.prog E (M m)⟩), next := s.next + 1 }
  | draw (s i m c n k b r) : s.busy t = some ⟨i, m, c, .draw n k⟩ → (s.src m).fill n = (some b, r) →
      Step E M t s { s with src := upd s.src m r, busy := upd s.busy t (some ⟨i, m, c, k b⟩), draws := s.draws ++ [(m, ⟨t, i, (s.src m).pos, n⟩)] }
  | fail (s i m c n k r) : s.busy t = some ⟨i, m, c, .draw n k⟩ → (s.src m).fill n = (none, r) →
      Step E M t s { s with src := upd s.src m r, busy := upd s.busy t none, done := s.done ++ [⟨i, m, c, .panic⟩] }
  | finish (s i m c x) : s.busy t = some ⟨i, m, c, .ret x⟩ →
      Step E M t s { s with busy := upd s.busy t none, done := s.done ++ [⟨i, m, c, x⟩] }

/-- At the start no thread is in a call. -/
def init (src : Nat → Rng) : State := ⟨src, fun _ => none, 0, [], []⟩

/-- What can happen. -/
inductive Reach (E : Env) (M : Nat → Manager) (src : Nat → Rng) : State → Prop
  | init : Reach E M src (init src)
  | step (t s s') : Reach E M src s → Step E M t s s' → Reach E M src s'

/-- The draws of a call, in order. -/
def State.drawsOf (s : State) (i : Nat) : List Draw := (s.draws.filter fun d => d.2.op = i).map Prod.snd

open KC.Spec.Wallet (Event)

/-- By finished calls, of any threads, a wallet with a password has become another. -/
inductive Derives (M : Nat → Manager) (done : List Entry) : Bytes × Str → List Event → Bytes × Str → Prop
  | nil (s) : Derives M done s [] s
  | change (s evs b p b' p' i m) : Derives M done s evs (b, p) → ⟨i, m, .change b p p', .ok (.blob b')⟩ ∈ done →
      Derives M done s (evs ++ [.changed]) (b', p')
  | add (s evs b p b' it n i m) : Derives M done s evs (b, p) → ⟨i, m, .add it b p n, .ok (.blob b')⟩ ∈ done →
      Derives M done s (evs ++ [.added (M m) n]) (b', p)

end KC.Spec.Conc
