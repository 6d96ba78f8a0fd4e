import Verif.VocabNodes

/-!
# Independent lists

The specification of the containers: every list object has its own sequence of values; an event changes the sequence of the
list it is about and no other.
-/

namespace Verif.Nodes.Spec

variable {α : Type}

/-- All lists, by name. -/
abbrev Lists (α : Type) := Nat → Option (List α)

/-- Change one list. -/
def set (g : Lists α) (o : Nat) (l : Option (List α)) : Lists α := fun x => if x = o then l else g x

/-- An operation on a list: new contents and answer. -/
def opStep (l : List α) : LOp α → List α × Ans α
  | .push v => (l ++ [v], .none)
  | .insertAt i v => (l.take i ++ v :: l.drop i, .none)
  | .eraseAt i => (l.take i ++ l.drop (i + 1), .none)
  | .setAt i v => (l.set i v, .none)
  | .get i => (l, match l[i]? with | some v => .val v | none => .none)
  | .popBack => (l.dropLast, .none)
  | .eraseRange i j => (l.take i ++ l.drop j, .none)
  | .clear => ([], .none)
  | .reverse => (l.reverse, .none)
  | .sort le => (l.mergeSort le, .none)
  | .toList => (l, .vals l)

/-- The arguments are in range: the methods of the linked lists check their indices. -/
def opOk (l : List α) : LOp α → Prop
  | .eraseAt i | .setAt i _ | .get i => i < l.length
  | .popBack => l ≠ []
  | .eraseRange i j => i ≤ j
  | _ => True

/-- An event. -/
def step (g : Lists α) : Ev α → Lists α × Ans α
  | .create o => (if (g o).isSome then g else set g o (some []), .none)
  | .copy o c => (if (g c).isSome then g else match g o with | some l => set g c (some l) | none => g, .none)
  | .assign o p => (match g o, g p with | some _, some l => set g o (some l) | _, _ => g, .none)
  | .extend o p => (match g o, g p with | some l, some l' => set g o (some (l ++ l')) | _, _ => g, .none)
  | .on o op =>
    match g o with
    | none => (g, .none)
    | some l => (set g o (some (opStep l op).1), (opStep l op).2)
  | .drop o => (set g o none, .none)

/-- The event is in range. -/
def evOk (g : Lists α) : Ev α → Prop
  | .on o op => ∀ l, g o = some l → opOk l op
  | _ => True

/-- Every event of the history is in range when it happens. -/
def Ok : Lists α → List (Ev α) → Prop
  | _, [] => True
  | g, e :: es => evOk g e ∧ Ok (step g e).1 es

/-- All lists after a history. -/
def after (g : Lists α) : List (Ev α) → Lists α
  | [] => g
  | e :: es => after (step g e).1 es

/-- The answers of a history. -/
def answers (g : Lists α) : List (Ev α) → List (Ans α)
  | [] => []
  | e :: es => (step g e).2 :: answers (step g e).1 es

/-- The event is about the list `o`: it may change it. -/
def changes (o : Nat) : Ev α → Prop
  | .create p | .drop p => p = o
  | .copy _ c => c = o
  | .assign p _ | .extend p _ => p = o
  | .on p _ => p = o

end Verif.Nodes.Spec
