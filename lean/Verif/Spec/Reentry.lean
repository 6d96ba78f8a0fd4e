import Verif.Model.ListSort
import Verif.Spec.Store

/-!
# Specification for C37: what callbacks and other threads do to the lists
-/

namespace Verif.Spec

open Verif.Store
open Verif.CPySort (Caller)

variable {α : Type}

/-- A sequence of operations, none with undefined behaviour, all admitted by `ok`. -/
inductive Reach (cfg : Cfg) (K : Kind) (grow : Nat → Nat → Nat) (ok : World → Ev → World → Prop) : World → World → Prop
  | refl (w : World) : Reach cfg K grow ok w w
  | step (w w' w'' : World) (e : Ev) (hw : Reach cfg K grow ok w w') (hs : (Store.step cfg K grow w' e).state? = some w'')
      (he : ok w' e w'') : Reach cfg K grow ok w w''

/-- Operations on other lists. -/
def Elsewhere (o : Nat) : World → Ev → World → Prop := fun w e _ => ¬ Touches o w e

/-- The list is not dropped: whoever calls `o.sort` holds it. -/
def Held (o : Nat) : World → Ev → World → Prop := fun _ e _ => e ≠ .drop o

/-- The list is not dropped and neither has nor is promised more than `n` elements. -/
def InRoom (o n : Nat) : World → Ev → World → Prop := fun w e w' =>
  e ≠ .drop o ∧ (∀ l ∈ contents w o, l.length + promised o e ≤ n) ∧ ∀ l ∈ contents w' o, l.length ≤ n

/-- Key function and comparison perform operations admitted by `ok`, and may answer or raise what they like; the
allocator runs no Python code. -/
structure Conduct (cfg : Cfg) (K : Kind) (grow : Nat → Nat → Nat) (ok : World → Ev → World → Prop) {κ ν : Type}
    (c : Caller World κ ν) : Prop where
  key : ∀ w x, Reach cfg K grow ok w (c.key w x).2
  lt : ∀ w x y, Reach cfg K grow ok w (c.lt w x y).2
  malloc : ∀ w n, (c.malloc w n).2 = w

/-- An outcome seen with the contents of the list `o`. -/
def shows (o : Nat) : Out World Unit → Out (Option (List Int)) Unit
  | .ok w a => .ok (contents w o) a
  | .exc w e => .exc (contents w o) e
  | .pending w a e => .pending (contents w o) a e
  | .ub u => .ub u

/-- The same for a list alone. -/
def showsAlone : Out (List Int) Unit → Out (Option (List Int)) Unit
  | .ok l a => .ok (some l) a
  | .exc l e => .exc (some l) e
  | .pending l a e => .pending (some l) a e
  | .ub u => .ub u

/-- `l` written over the front of `old`. -/
def over (l old : List α) : List α := l.take old.length ++ old.drop l.length

/-- The elements of a sort's result written over the front of `old`. -/
def Out.over (old : List Int) : Out (List Int) Unit → Out (List Int) Unit
  | .ok l a => .ok (Spec.over l old) a
  | .exc l e => .exc (Spec.over l old) e
  | .pending l a e => .pending (Spec.over l old) a e
  | .ub u => .ub u

/-- An outcome on a linked list seen with its elements. -/
def showsVals : Out (LState α) Unit → Out (List α) Unit
  | .ok s a => .ok s.vals a
  | .exc s e => .exc s.vals e
  | .pending s a e => .pending s.vals a e
  | .ub u => .ub u

/-- Callbacks under which a linked list with at least `n` elements keeps at least `n`. -/
structure NotBelow (n : Nat) {α κ ν : Type} (c : Caller (LState α) κ ν) : Prop where
  key : ∀ s x, n ≤ s.size → n ≤ (c.key s x).2.size
  lt : ∀ s x y, n ≤ s.size → n ≤ (c.lt s x y).2.size
  malloc : ∀ s k, (c.malloc s k).2 = s

/-- The same for a sort with or without key function; without one, only comparisons are called. -/
def CallNotBelow (n : Nat) {α κ : Type} : ListSort.Call (LState α) κ α → Prop
  | .keyed c => NotBelow n c
  | .plain c => (∀ s x y, n ≤ s.size → n ≤ (c.lt s x y).2.size) ∧ ∀ s k, (c.malloc s k).2 = s

end Verif.Spec
