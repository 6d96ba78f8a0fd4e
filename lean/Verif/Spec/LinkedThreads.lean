import Verif.Spec.Nodes
import Verif.Model.LinkedThreads

/-!
# Specification for C66, linked lists: calls of several threads, one after the other

The lists are the independent sequences of Spec/Nodes.lean; every call acts when it begins.
-/

namespace Verif.LinkedThreads.Spec

open Verif.Nodes Verif.Nodes.Spec

variable {α : Type}

/-- All lists after one step of a schedule when every call acts at once. -/
def after1 (g : Lists α) : Act α → Lists α
  | .call e => (Nodes.Spec.step g e).1
  | .reverse _ o => (Nodes.Spec.step g (.on o .reverse)).1
  | .tick _ => g

/-- All lists after a schedule. -/
def after (g : Lists α) : List (Act α) → Lists α
  | [] => g
  | a :: as => after (after1 g a) as

/-- What may be learnt at one step: the answer of a call, and that a `reverse` in progress has ended (it answers `None`). -/
def Learns (g : Lists α) (x : Obs α) : Act α → Prop
  | .call e => x = .ret (Nodes.Spec.step g e).2
  | .reverse _ _ => x = .quiet
  | .tick _ => x = .quiet ∨ x = .ret .none

/-- The same for a schedule. -/
def Learnt (g : Lists α) : List (Act α) → List (Obs α) → Prop
  | [], [] => True
  | a :: as, x :: xs => Learns g x a ∧ Learnt (after1 g a) as xs
  | _, _ => False

/-- The event is about the list `o` or reads it. -/
def Uses (o : Nat) : Ev α → Prop
  | .create p | .drop p => p = o
  | .copy p c => p = o ∨ c = o
  | .assign p q | .extend p q => p = o ∨ q = o
  | .on p _ => p = o

/-- No other thread uses a list while it is being reversed; the methods have checked their indices; a thread makes one call at a
time. -/
def Exclusive1 (s : State α) (g : Lists α) : Act α → Prop
  | .call e => evOk g e ∧ ∀ t o r, s.tasks t = some (o, r) → ¬ Uses o e
  | .reverse t o => s.tasks t = none ∧ ∀ t' r, s.tasks t' ≠ some (o, r)
  | .tick _ => True

/-- The same for a whole schedule. -/
def Exclusive (s : State α) (g : Lists α) : List (Act α) → Prop
  | [] => True
  | a :: as => Exclusive1 s g a ∧
    match LinkedThreads.step s a with
    | .error _ => True
    | .ok (s', _) => Exclusive s' (after1 g a) as

end Verif.LinkedThreads.Spec
