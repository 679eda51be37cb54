import Verif.Spec.CApi
/-
C programs that use their variables again: a result is written over what the variable held.
-/
namespace KC.Spec.C
open KC.C

/-- A C program in progress: library memory, and its variables by number, as far as something was written to them. -/
structure NState where
  heap : Heap
  vars : Nat → Option Var

/-- A step: call a function, with the variables for the handle, the result and the error (and what the latter two hold if nothing of
their type was written to them yet), or delete a variable in place. -/
inductive NOp where
  | call (k : Kind) (f : Fn k) (x : Ctx) (handle out err : Nat) (val : Val k) (error : ErrorPtr)
  | delete (j : Nat)

/-- The value of type `k` in a variable. -/
def held (k : Kind) (o : Option Var) (d : Val k) : Val k :=
  match o with
  | some v => if h : v.kind = k then h ▸ v.val else d
  | none => d

/-- The handle in a variable, null if there is none. -/
def NState.handle (s : NState) (o : Option Kind) (j : Nat) : Ptr :=
  match s.vars j with
  | some v => v.handle o
  | none => .null

def NState.write (s : NState) (h : Heap) (j : Nat) (v : Var) : NState := ⟨h, fun i => if i = j then some v else s.vars i⟩

/-- How a step ends. -/
inductive NStep where
  | next (s : NState)
  | unwound
  | ub

/-- One step: a call writes the result or the error (keychain-c/src/utils/result.rs:7-20: plain assignments, which drop nothing as the
types are `Copy`). -/
def NState.step (W : Build) (s : NState) : NOp → NStep
  | .call k f x j o e val error =>
    match f.call W x (s.handle f.handle j) (held k (s.vars o) val) (held .error (s.vars e) error) s.heap with
    | .ret true v _ h => .next (s.write h o ⟨k, v⟩)
    | .ret false _ r h => .next (s.write h e ⟨.error, r⟩)
    | .unwind _ => .unwound
    | .ub => .ub
  | .delete j =>
    match s.vars j with
    | none => .next s
    | some v =>
      match delete W v.kind v.val s.heap with
      | .ok v' h => .next (s.write h j ⟨v.kind, v'⟩)
      | .err e _ => nomatch e
      | .panic _ => .unwound
      | .ub => .ub

/-- All steps. -/
def NState.run (W : Build) : List NOp → NState → NStep
  | [], s => .next s
  | op :: ops, s =>
    match s.step W op with
    | .next s' => s'.run W ops
    | x => x

/-- Nothing written yet. -/
def NState.start : NState := ⟨[], fun _ => none⟩

/-- The rule: delete a text only while it is live, and no network list unless it is empty or already deleted. -/
def NAllowed (s : NState) : NOp → Prop
  | .call .. => True
  | .delete j => ∀ v, s.vars j = some v →
    match v with
    | ⟨.text, p⟩ => isLive s.heap p
    | ⟨.networks, n⟩ => n.count = 0 ∨ n.ptr = .null
    | _ => True

/-- A program following the rule. -/
def NFollows (W : Build) : List NOp → NState → Prop
  | [], _ => True
  | op :: ops, s => NAllowed s op ∧ ∀ s', s.step W op = .next s' → NFollows W ops s'

/-- The step writes to this variable by a call. -/
def Writes (W : Build) (s : NState) (j : Nat) : NOp → Prop
  | .call k f x i o e val error =>
    (∃ v r h, f.call W x (s.handle f.handle i) (held k (s.vars o) val) (held .error (s.vars e) error) s.heap = .ret true v r h ∧ j = o) ∨
    (∃ v r h, f.call W x (s.handle f.handle i) (held k (s.vars o) val) (held .error (s.vars e) error) s.heap = .ret false v r h ∧ j = e)
  | .delete _ => False

/-- A program that deletes what a variable holds before it has something else written to it. -/
def Tidy (W : Build) : List NOp → NState → Prop
  | [], _ => True
  | op :: ops, s => (∀ j v, Writes W s j op → s.vars j = some v → Gone s.heap v.kind v.val) ∧
      ∀ s', s.step W op = .next s' → Tidy W ops s'

end KC.Spec.C
