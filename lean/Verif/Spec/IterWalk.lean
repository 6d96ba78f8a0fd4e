import Verif.Spec.Session
import Verif.Spec.ObjSession
import Verif.Spec.GuardIter

/-!
# What an iterator of a linked list answers while the list is changed

A description of the answers in terms of contents alone. Some calls are noticed by the iterator (`noticed`): the successful ones
of `append`, `insert`, `remove`, `pop` and every `extend` with something iterable. `steps` are the contents at each
`next()`, with whether a call since the `next()` before was one of those.
-/

namespace Verif.Spec

/-- A result that is no exception. -/
def succeeded : Except ε α → Bool
  | .ok _ => true
  | .error _ => false

/-- The calls on a list of ints that its iterators notice. -/
def noticed (l : List Int) : Op → Bool
  | .append _ => true
  | .insert i a => succeeded (step 32 l (.insert i a)).2
  | .remove a => succeeded (step 32 l (.remove a)).2
  | .pop a => succeeded (step 32 l (.pop a)).2
  | .extend .notIterable => false
  | .extend _ => true
  | _ => false

/-- The contents at each `next()`. -/
def steps (l : List Int) (b : Bool) : List Ev → List (List Int × Bool)
  | [] => []
  | .call op :: es => steps (step 32 l op).1 (b || noticed l op) es
  | .next :: es => (l, b) :: steps l false es

/-- The same for a list of objects. -/
def onoticed (H : OHost) (l : List Obj) : OOp → Bool
  | .append _ => true
  | .insert i a => succeeded (ostep H l (.insert i a)).2
  | .remove a => succeeded (ostep H l (.remove a)).2
  | .pop a => succeeded (ostep H l (.pop a)).2
  | .extend .notIterable => false
  | .extend _ => true
  | _ => false

/-- The same for a list of objects. -/
def osteps (H : OHost) (l : List Obj) (b : Bool) : List OSEv → List (List Obj × Bool)
  | [] => []
  | .call op :: es => osteps H (ostep H l op).1 (b || onoticed H l op) es
  | .next :: es => (l, b) :: osteps H l false es

/-- The forward iterator: it is over (for now) once the list has no more than `i` elements. Otherwise it answers the element at
`p`; if calls it noticed came in between, the element at `i`, and `i` advances by two. So the element to come is `i - p` elements
from where it should be, for good. -/
def walk (i p : Nat) (late : Bool) : List (List α × Bool) → List (Next α)
  | [] => []
  | (l, b) :: vs =>
    if l.length ≤ i then .stop :: walk i p (late || b) vs
    else if late || b then
      match l[i]? with
      | some x => .yield x :: walk (i + 2) (i + 1) false vs
      | none => []
    else
      match l[p]? with
      | some x => .yield x :: walk (i + 1) (p + 1) false vs
      | none => []

/-- The reverse iterator: `i` counts down to 0, at which it answers the last element of the list, and then it is over. Before, it
answers the element at `p`; if calls it noticed came in between, the element at `i`, and `i` is lowered by two. If the list
has no element at `i` by then, it reads what is not there. -/
def walkBack (i : Option Nat) (p : Nat) (late : Bool) : List (List α × Bool) → List (Next α)
  | [] => []
  | (l, b) :: vs =>
    match l.getLast? with
    | none => .stop :: walkBack i p (late || b) vs
    | some z =>
      match i with
      | none => .stop :: walkBack none p (late || b) vs
      | some 0 => .yield z :: walkBack none p (late || b) vs
      | some (i + 1) =>
        if late || b then
          match l[i + 1]? with
          | some x => .yield x :: walkBack (if i = 0 then none else some (i - 1)) i false vs
          | none => [.ub .outOfBounds]
        else
          match l[p]? with
          | some x => .yield x :: walkBack (some i) (p - 1) false vs
          | none => []

end Verif.Spec
