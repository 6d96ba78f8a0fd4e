import Verif.VocabElems

/-!
# Python's lists with elements that have methods

What a Python list does: it is changed first, and then the references to the elements taken out are dropped, one after the
other; an element whose last reference this was is destroyed, and its `__del__` runs and finds the changed list.
-/

namespace Verif.Elems.Spec

/-- What Python code sees: the elements of the list, the references from elsewhere, and the elements destroyed so far. -/
structure View where
  elems : List Nat
  ext : Nat → Nat
  gone : List Nat

/-- `__del__` of each object. -/
abbrev Dels := Nat → View → View

/-- Drop the references to the objects `xs`, which are no longer in the list. -/
def drop (del : Dels) : List Nat → View → View
  | [], v => v
  | x :: xs, v =>
    drop del xs (if v.ext x = 0 ∧ x ∉ xs ∧ x ∉ v.elems then del x { v with gone := v.gone ++ [x] } else v)

/-- `l.clear()`. -/
def clear (del : Dels) (v : View) : View := drop del v.elems { v with elems := [] }

/-- `del l[i]` for a position in the list. -/
def delete (del : Dels) (i : Nat) (v : View) : View :=
  match v.elems[i]? with
  | none => v
  | some x => drop del [x] { v with elems := v.elems.take i ++ v.elems.drop (i + 1) }

/-- `l.append(x)`. -/
def append (x : Nat) (v : View) : View := { v with elems := v.elems ++ [x] }

/-- `__del__` that does not touch the list. -/
def away (f : Nat → Effect) : Dels := fun x v => { v with ext := f x v.ext }

/-- `l[i:i+len(ys)] = ys`, for a list `ys` of objects: the new elements are in place when the old ones are dropped. -/
def setSlice (del : Dels) (i : Nat) (ys : List Nat) (v : View) : View :=
  drop del ((v.elems.drop i).take ys.length)
    { v with elems := v.elems.take i ++ ys ++ v.elems.drop (i + ys.length) }

/-- The answer to `x == y` or `x != y` for different objects: if the first does not know, the second is asked; if neither
knows, they differ. -/
def resolve (P : Rel → Nat → Nat → Reply) (r : Rel) (x y : Nat) : Except Exc Bool :=
  match P r x y with
  | .val b => .ok b
  | .err e => .error e
  | .notImplemented =>
    match P r y x with
    | .val b => .ok b
    | .err e => .error e
    | .notImplemented => .ok (match r with | .eq => false | .ne => true)

/-- The answer to `l == s` or `l != s` for sequences of the same length, when the elements answer as `R` says; an object is
equal to itself without being asked. -/
def compare (R : Nat → Nat → Except Exc Bool) : Rel → List Nat → List Nat → Except Exc Bool
  | .eq, [], _ => .ok true
  | .ne, [], _ => .ok false
  | _, _ :: _, [] => .ok false
  | .eq, x :: xs, y :: ys =>
    match (if x = y then .ok true else R x y) with
    | .error e => .error e
    | .ok false => .ok false
    | .ok true => compare R .eq xs ys
  | .ne, x :: xs, y :: ys =>
    match (if x = y then .ok false else R x y) with
    | .error e => .error e
    | .ok true => .ok true
    | .ok false => compare R .ne xs ys

end Verif.Elems.Spec
