import Verif.Model.Life

/-!
# What Python promises about the life of objects

An object lives as long as a reference leads to it; elements are those of a Python list (`list.__new__(list)` is `[]`,
`l.__init__(it)` replaces the elements). These definitions look at the references and elements only, not at counts.
-/

namespace Verif.Spec.Life

open Verif.Life

/-- The object exists. -/
def Lives (w : World) (x : Nat) : Prop := ∃ c, w.heap.cells x = some c

/-- The elements of an object. -/
def elems (w : World) (x : Nat) : List Elem :=
  match w.heap.cells x with
  | some c => c.body.items
  | none => []

/-- A reference of Python code leads to the object, directly or through lists. -/
inductive Reached (w : World) : Nat → Prop
  | name {x : Nat} (h : x ∈ w.names) : Reached w x
  | item {o x : Nat} (r : Reached w o) (h : .obj x ∈ elems w o) : Reached w x

/-- No list contains itself, directly or through others: lists can be given ranks that increase from element to list. -/
def NoCycle (w : World) : Prop := ∃ rank : Nat → Nat, ∀ o x, .obj x ∈ elems w o → rank x < rank o

/-- The sum of `f` over the first `n` objects. -/
def total (f : Nat → Nat) : Nat → Nat
  | 0 => 0
  | n + 1 => total f n + f n

/-- The elements after an event that returns normally; `n` is the object the event creates, if any. -/
def after (old : Nat → List Elem) (n : Nat) : Ev → Nat → List Elem
  | .init o items _ => fun y => if y = o then items else old y
  | .initFrom o p => fun y => if y = o then (if o = p then [] else old p) else old y
  | .new _ => fun y => if y = n then [] else old y
  | .create _ items _ => fun y => if y = n then items else old y
  | .append o e => fun y => if y = o then old o ++ [e] else old y
  | .pop o => fun y => if y = o then (old o).dropLast else old y
  | .clear o => fun y => if y = o then [] else old y
  | .copy o => fun y => if y = n then old o else old y
  | _ => old

/-- What the event answers when it returns normally. -/
def answer (old : Nat → List Elem) (n : Nat) : Ev → Option Ans
  | .pop o => (old o).getLast?.map .elem
  | .get o i => (old o)[i]?.map .elem
  | .len o => some (.size (old o).length)
  | .new _ | .create _ _ _ | .copy _ => some (.new n)
  | _ => some .none

/-- The class of the list, if `o` is a list to which Python code holds a reference. -/
def listOf (w : World) (o : Nat) : Option Class :=
  if o ∈ w.names then
    match w.heap.cells o with
    | some c => if c.cls = .other then none else some c.cls
    | none => none
  else none

/-- A list of the class takes the elements, and Python code has them. -/
def takes (w : World) (k : Class) (items : List Elem) : Bool :=
  items.all fun
    | .obj x => (k == .objArray || k == .objLinked) && w.names.contains x
    | .int _ => k == .intArray || k == .intLinked

/-- The exception an event is answered with, if any; TypeError stands for events that Python code cannot bring about. -/
def refused (w : World) : Ev → Option Exc
  | .new _ => none
  | .init o items fails => match listOf w o with
    | some k => if takes w k items then (if fails then some .valueError else none) else some .typeError
    | none => some .typeError
  | .initFrom o p => match listOf w o, listOf w p with
    | some k, some k' => if k = k' then none else some .typeError
    | _, _ => some .typeError
  | .create k items fails =>
    if k ≠ .other ∧ takes w k items then (if fails then some .valueError else none) else some .typeError
  | .append o e => match listOf w o with
    | some k => if takes w k [e] then none else some .typeError
    | none => some .typeError
  | .pop o => match listOf w o with
    | some _ => if elems w o = [] then some .indexError else none
    | none => some .typeError
  | .get o i => match listOf w o with
    | some _ => if i < (elems w o).length then none else some .indexError
    | none => some .typeError
  | .len o | .clear o | .copy o => if (listOf w o).isSome then none else some .typeError
  | .dup x | .drop x => if x ∈ w.names then none else some .typeError

/-- The event constructs a list from another list of the same class that contains objects. -/
def sharing (w : World) : Ev → Bool
  | .initFrom o p => o != p && (elems w p).any fun
    | .obj _ => true
    | .int _ => false
  | _ => false

/-- The event makes a linked list without initialising it. -/
def Ev.bare : Ev → Bool
  | .new k => k.linked
  | _ => false

/-- The event initialises an object that has been initialised before. -/
def again (w : World) : Ev → Bool
  | .init o _ _ | .initFrom o _ => match w.heap.cells o with
    | some c => c.body != .zero
    | none => false
  | _ => false

/-- The object the event initialises, if Python code can bring the event about. -/
def over (w : World) (ev : Ev) : Option Nat :=
  match ev with
  | .init o _ _ | .initFrom o _ => if refused w ev = some .typeError then none else some o
  | _ => none

/-- The references that were in the object the event initialises. -/
def lostRefs (w : World) (ev : Ev) : List Nat :=
  match over w ev with
  | some o => (elems w o).filterMap Elem.ref?
  | none => []

/-- The storage the object had that the event initialises. -/
def lostBlocks (w : World) (ev : Ev) : Nat :=
  match over w ev with
  | some o => match w.heap.cells o with
    | some c => c.blocks
    | none => 0
  | none => 0

/-- The references and the storage that initialised objects had when they were initialised again, over a history. -/
def lost (D : Nat) : World → List Ev → List Nat × Nat
  | _, [] => ([], 0)
  | w, e :: es =>
    let rest := match (step D w e).state? with
      | some w' => lost D w' es
      | none => ([], 0)
    (lostRefs w e ++ rest.1, lostBlocks w e + rest.2)

/-- A reference of Python code, or one of those in `L`, leads to the object, directly or through lists. -/
inductive Held (w : World) (L : List Nat) : Nat → Prop
  | name {x : Nat} (h : x ∈ w.names) : Held w L x
  | lost {x : Nat} (h : x ∈ L) : Held w L x
  | item {o x : Nat} (r : Held w L o) (h : .obj x ∈ elems w o) : Held w L x

/-- No event of the history is of the kind `bad` when it happens. -/
def Never (bad : World → Ev → Bool) (D : Nat) : World → List Ev → Prop
  | _, [] => True
  | w, e :: es => bad w e = false ∧ ∀ w', (step D w e).state? = some w' → Never bad D w' es

/-- Lists are nested less than `D` deep: they can be given ranks below `D` that increase from element to list, one rank
being left for a new list. -/
def Below (D : Nat) (w : World) : Prop :=
  ∃ rank : Nat → Nat, (∀ o x, .obj x ∈ elems w o → rank x < rank o) ∧ ∀ x, rank x + 1 < D

/-- Lists are nested less than `D` deep before every event of the history. -/
def Shallow (D : Nat) : World → List Ev → Prop
  | _, [] => True
  | w, e :: es => Below D w ∧ ∀ w', (step D w e).state? = some w' → Shallow D w' es

/-- `n + 1` lists, each the only element of the next. -/
def nested : Nat → List Ev
  | 0 => [.create .objArray [] false]
  | n + 1 => nested n ++ [.create .objArray [.obj n] false, .drop n]

end Verif.Spec.Life
