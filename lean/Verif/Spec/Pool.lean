import Verif.Model.Pool

/-!
# Specification for C50: what a schedule of the thread pool asks for

Read off the labels and the recorded order of queued and started tasks only.
-/

namespace Verif.Spec

open Verif.Pool

/-- The tasks handed over in a schedule, in order. -/
def handedOver (ls : List Label) : List Nat :=
  ls.filterMap fun l => match l with | .push k _ => some k | _ => none

/-- Number of `submit` calls in a schedule. -/
def calls (ls : List Label) : Nat := ls.countP fun l => match l with | .call _ => true | _ => false

/-- Number of spurious wake-ups. -/
def spurious (ls : List Label) : Nat := ls.countP fun l => match l with | .spurious _ => true | _ => false

/-- Number of shutdowns. -/
def closes (ls : List Label) : Nat := ls.countP fun l => match l with | .close => true | _ => false

/-- A move that only needs the threads inside the pool's own code to go on. -/
def internal : Label → Bool
  | .lock _ | .push .. | .unlock _ | .poll _ | .begin _ | .finish _ => true
  | _ => false

/-- Nothing in the pool's own code can move any more. -/
def Quiet (n : Nat) (s : St) : Prop := ∀ l, internal l = true → step n s l = none

/-- Every `submit` of the schedule returns only after its task has run to the end. -/
def Patient (n : Nat) : St → List Label → Prop
  | _, [] => True
  | s, l :: ls =>
    (∀ k, l = .drop k → k ∈ s.begun ∧ ∀ i, i < n → s.workers i ≠ .running k) ∧
    ∀ s', step n s l = some s' → Patient n s' ls

/-- No task has called back into the pool. -/
def NoNested (s : St) : Prop := ∀ i, s.workers i ≠ .stuck

end Verif.Spec
