import Verif.VocabConstruct
import Verif.Model.Foreign

/-!
# Constructor calls

`tp_init` of the lists, argument parsing included, where the arguments are any objects and the elements of the given
iterable may run Python code. IntArrayList.cpp 23-111 (BigIntArrayList.cpp has the same text), IntLinkedList.cpp 23-91,
ObjectArrayList.cpp 23-101, ObjectLinkedList.cpp 23-84.

Simplified: reference counts (C29, C54, C61), memory that runs out while elements are added (C53, C60). The object under
construction is not reachable by the code.
-/

namespace Verif.Construct

open Foreign ArrayList

variable {W : Type}

/-! ## Argument parsing -/

/-- The argument for parameter number `i` named `name`: by position, else by keyword (`vgetargskeywords` of CPython). -/
def pick (c : Call W) (i : Nat) (name : String) : Option (Thing W) :=
  match c.args[i]? with
  | some t => some t
  | none => c.kwargs.lookup name

/-- How many of the parameters `names`, the first of them number `i`, are given by keyword. (CPython's
`vgetargskeywords`; called at IntArrayList.cpp 29.) -/
def used (c : Call W) : Nat → List String → Nat
  | _, [] => 0
  | i, s :: ss =>
    (if i < c.args.length then 0 else if (c.kwargs.lookup s).isSome then 1 else 0) + used c (i + 1) ss

/-- `PyArg_ParseTupleAndKeywords` of CPython with the format `|On` (IntArrayList.cpp 29): too many arguments, conversion of
the second, then keywords that were not used (unknown, or given by position as well). -/
def parseOn (c : Call W) (w : W) : W × Except Exc (Option (Thing W) × Option Int) :=
  if c.args.length + c.kwargs.length > 2 then (w, .error .typeError)
  else
    match convOr 0 ((pick c 1 "exceptSize").map Thing.index) w with
    | (w, (_, some e)) => (w, .error e)
    | (w, (n, none)) =>
      if used c 0 ["iterable", "exceptSize"] < c.kwargs.length then (w, .error .typeError)
      else (w, .ok (pick c 0 "iterable", (pick c 1 "exceptSize").map fun _ => n))

/-- The same with the format `|O` (IntLinkedList.cpp 32). -/
def parseO (c : Call W) : Except Exc (Option (Thing W)) :=
  if c.args.length + c.kwargs.length > 1 then .error .typeError
  else if used c 0 ["iterable"] < c.kwargs.length then .error .typeError
  else .ok (pick c 0 "iterable")

/-- IntArrayList.cpp 23-40, `parseArgs`, with the default -1 of line 46: the iterable, the size to reserve, and the
exception that is set when it returns (it returns nothing, and 48 does not ask). -/
def parseArgs (c : Call W) (w : W) : W × Option (Given W) × Int × Option Exc :=
  match parseOn c w with
  | (w, .error e) => (w, none, -1, some e)                        -- 29-31
  | (w, .ok (t, n)) =>
    match t with
    | none => (w, none, n.getD (-1), none)                        -- 33
    | some t =>
      match t.what with
      | .int v => let (s, e) := asSsize (.int v); (w, none, s, e)   -- 35-36
      | g => (w, some g, n.getD (-1), none)                       -- 38

/-! ## Elements -/

/-- The list or tuple path (IntArrayList.cpp 63-81): `size` and `items` are read once (69-70), and the item at `items[i]`
after the conversions before it have run their code. `items` is the block `b`; if the list has another block by then, it
was freed. `n` items are left. Any exception becomes a RuntimeError (75). -/
def fastLoop (K : Kind) (code : Nat → Live W) (p : PyList W) (b : Nat) : Nat → Nat → W → List Int → Out (W × List Int) Unit
  | 0, _, w, acc => .ok (w, acc) ()
  | n + 1, i, w, acc =>
    if p.block w ≠ b then .ub .useAfterFree
    else
      match (p.items w)[i]? with
      | none => .ub .outOfBounds
      | some x =>
        match conv (toElem K) (code x) w with
        | (w, (_, some _)) => .exc (w, acc) .runtimeError
        | (w, (v, none)) => fastLoop K code p b n (i + 1) w (acc ++ [v])

/-- The iterator path (IntArrayList.cpp 89-103): a conversion that fails becomes a RuntimeError (96); an exception of the
iterator itself stays (103). -/
def iterLoop (K : Kind) : W → List Int → Feed W → Out (W × List Int) Unit
  | w, acc, .done g => .ok (g w, acc) ()
  | w, acc, .fail g e => .exc (g w, acc) e
  | w, acc, .item g x k =>
    match conv (toElem K) x (g w) with
    | (w', (_, some _)) => .exc (w', acc) .runtimeError
    | (w', (v, none)) => iterLoop K w' (acc ++ [v]) (k w)

/-- IntArrayList.cpp 56-104 and IntLinkedList.cpp 37-83: the elements of the argument. `PyList_Check` (63) holds for
subclasses of `list` as well, and `PySequence_Fast` (64) takes such an object as it is. An exception of `__iter__` becomes
a TypeError (86). An int gets here only in IntLinkedList, and is not iterable. -/
def elements (K : Kind) (code : Nat → Live W) (w : W) : Given W → Out (W × List Int) Unit
  | .int _ => .exc (w, []) .typeError
  | .same xs => .ok (w, xs) ()
  | .list p => fastLoop K code p (p.block w) (p.items w).length 0 w []
  | .sub p _ => fastLoop K code p (p.block w) (p.items w).length 0 w []
  | .tuple xs => fastLoop K code ⟨fun _ => 0, fun _ => xs⟩ 0 xs.length 0 w []
  | .other it =>
    match it w with
    | (w, .error _) => .exc (w, []) .typeError
    | (w, .ok f) => iterLoop K w [] f

/-- The iterator path of the object lists (ObjectArrayList.cpp 89-93, ObjectLinkedList.cpp 67-72): every item as it is. -/
def takeLoop : W → List (Live W) → Feed W → Out (W × List (Live W)) Unit
  | w, acc, .done g => .ok (g w, acc) ()
  | w, acc, .fail g e => .exc (g w, acc) e
  | w, acc, .item g x k => takeLoop (g w) (acc ++ [x]) (k w)

/-- ObjectArrayList.cpp 56-94 and ObjectLinkedList.cpp 37-73: the elements of the argument; a list or tuple is copied without
running any code (69-79; 48-55). -/
def objects (code : Nat → Live W) (w : W) : Given W → Out (W × List (Live W)) Unit
  | .int _ => .exc (w, []) .typeError
  | .same xs => .ok (w, xs.map fun x => code x.toNat) ()
  | .list p => .ok (w, (p.items w).map code) ()
  | .sub p _ => .ok (w, (p.items w).map code) ()
  | .tuple xs => .ok (w, xs.map code) ()
  | .other it =>
    match it w with
    | (w, .error _) => .exc (w, []) .typeError
    | (w, .ok f) => takeLoop w [] f

/-- A call that returns 0 while the exception `e` is set. (IntArrayList.cpp 111.) -/
def leave {α : Type} (e : Option Exc) : Out (W × List α) Unit → Out (W × List α) Unit
  | .ok s _ => match e with
    | none => .ok s ()
    | some e => .pending s () e
  | o => o

/-- IntArrayList.cpp 42-111 and ObjectArrayList.cpp 42-101: `room n` tells whether `reserve(n)` (53) gets its memory; `el`
is the part from line 56 on. -/
def initWith {α : Type} (el : W → Given W → Out (W × List α) Unit) (room : Nat → Bool) (c : Call W) (w : W) :
    Out (W × List α) Unit :=
  match parseArgs c w with
  | (w, g, n, e) =>
    if n > 0 ∧ room n.toNat = false then .exc (w, []) .runtimeError
    else
      leave e (match g with
        | none => .ok (w, []) ()
        | some g => el w g)

/-- IntLinkedList.cpp 23-91 and ObjectLinkedList.cpp 23-84. -/
def linkedWith {α : Type} (el : W → Given W → Out (W × List α) Unit) (c : Call W) (w : W) : Out (W × List α) Unit :=
  match parseO c with
  | .error e => .exc (w, []) e                                    -- 32-34
  | .ok none => .ok (w, []) ()
  | .ok (some t) => el w t.what

/-- `IntArrayList(…)` and `BigIntArrayList(…)`, IntArrayList.cpp 42-111. -/
def initArray (K : Kind) (room : Nat → Bool) (code : Nat → Live W) (c : Call W) (w : W) : Out (W × List Int) Unit :=
  initWith (elements K code) room c w

/-- `IntLinkedList(…)`, IntLinkedList.cpp 23-91. -/
def initLinked (code : Nat → Live W) (c : Call W) (w : W) : Out (W × List Int) Unit := linkedWith (elements .i32 code) c w

/-- `ObjectArrayList(…)`, ObjectArrayList.cpp 42-101. -/
def initObjArray (room : Nat → Bool) (code : Nat → Live W) (c : Call W) (w : W) : Out (W × List (Live W)) Unit :=
  initWith (objects code) room c w

/-- `ObjectLinkedList(…)`, ObjectLinkedList.cpp 23-84. -/
def initObjLinked (code : Nat → Live W) (c : Call W) (w : W) : Out (W × List (Live W)) Unit := linkedWith (objects code) c w

end Verif.Construct
