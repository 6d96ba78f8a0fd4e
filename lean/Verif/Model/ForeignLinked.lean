import Verif.Model.Foreign
import Verif.Model.IntLinkedList

/-!
# Python code inside a call of an IntLinkedList

ints/IntLinkedList.cpp (line numbers) once more, with arguments, iterators and sequences that are objects of user classes, as
in Model/Foreign. The methods hold iterators into the `std::list` while that code runs, so the code is a function on the
nodes: it finds the list `s` and leaves `g s`. An iterator is the identity of its node (`none` = `end()`); using it when the
node is gone is use after free.

Simplified: a `__length_hint__` is not asked for here; garbage collections are not considered; a method of a user class that
runs while the exception of a failed conversion is still set does not notice it.
-/

namespace Verif.ForeignLinked

open Verif.LinkedList (S LLOut boolOut)
open Verif.Foreign (conv convOr unpack)

/-- User code passed to a call, on nodes. Scaffolding of the model, no code of /repo. -/
abbrev Live := Foreign.Live S
/-- An iterator of a user class, on nodes. Scaffolding of the model, no code of /repo. -/
abbrev Feed := Foreign.Feed S
/-- A sequence of a user class, on nodes. Scaffolding of the model, no code of /repo. -/
abbrev Seq := Foreign.Seq S
/-- A slice whose fields are objects of user classes, on nodes. Scaffolding of the model, no code of /repo. -/
abbrev LSlice := Foreign.LSlice S

/-- A `std::list` iterator: the node it points to, or `end()`. (IntLinkedList.cpp 588, 856-1020.) -/
abbrev Iter := Option Nat

/-- `at(list, p)` or `begin()`: the iterator for a position that was computed by walking the list as it is. (Utils.h
11-33; called at IntLinkedList.cpp 278, 314, 539, 588.) -/
def iterAt (s : S) (p : Nat) : Iter := s.ids[p]?

/-- Where the node of an iterator is now. Scaffolding of the model, no code of /repo. -/
def place (s : S) (it : Iter) : Except UB Nat :=
  match it with
  | none => .ok s.size
  | some id =>
    match s.ids.idxOf? id with
    | none => .error .useAfterFree
    | some p => .ok p

/-- `*it`. (IntLinkedList.cpp 872, 921, 953, 985, 1017.) -/
def deref (s : S) (it : Iter) : Except UB Int :=
  match place s it with
  | .error u => .error u
  | .ok p =>
    match s.vals[p]? with
    | none => .error .outOfBounds
    | some v => .ok v

/-- `*it = v`. (IntLinkedList.cpp 597, 612, 633.) -/
def write (s : S) (it : Iter) (v : Int) : Except UB S :=
  match place s it with
  | .error u => .error u
  | .ok p => if p < s.size then .ok (s.assign p v) else .error .outOfBounds

/-- `++it`. (IntLinkedList.cpp 867, 915, 947, 979, 1011.) -/
def succ (s : S) (it : Iter) : Except UB Iter :=
  match place s it with
  | .error u => .error u
  | .ok p => if p < s.size then .ok (iterAt s (p + 1)) else .error .badIterator

/-! ## Arguments -/

/-- 175-192, `append`: the error of the conversion is not checked. -/
def append (s : S) (x : Live) : LLOut :=
  match conv (toElem .i32) x s with
  | (s, (v, none)) => .ok (s.push v).bump .none
  | (s, (v, some e)) => .pending (s.push v).bump .none e

/-- 344-372, `insert`: both arguments are parsed before the size is read (355). -/
def insert (s : S) (i x : Live) : LLOut :=
  match conv parseN i s with
  | (s, (_, some e)) => .exc s e
  | (s, (i, none)) =>
    match conv parseI x s with
    | (s, (_, some e)) => .exc s e
    | (s, (v, none)) =>
      let n : Int := s.size
      let i := if i < 0 then max 0 (n + i) else if i > n then n else i
      match listAt s.size i.toNat with
      | .error u => .ub u
      | .ok p => .ok (s.insert p v).bump .none

/-- 374-398, `remove`. -/
def remove (s : S) (x : Live) : LLOut :=
  match conv (toElem .i32) x s with
  | (s, (_, some e)) => .exc s e
  | (s, (v, none)) =>
    match ArrayList.findFrom s.vals 0 s.size v with
    | none => .exc s .valueError
    | some k => .ok (s.erase k).bump .none

/-- 326-342, `count`. -/
def count (s : S) (x : Live) : LLOut :=
  match conv (toElem .i32) x s with
  | (s, (v, e)) =>
    match (if v = -1 then e else none) with
    | some e => .exc s e
    | none => .ok s (.int (canon (s.vals.count v)))

/-- 284-324, `index`: the default of `stop` is the size before the arguments are parsed (289). -/
def index (s : S) (x : Live) (start stop : Option Live) : LLOut :=
  let old : Int := s.size
  match conv parseI x s with
  | (s, (_, some e)) => .exc s e
  | (s, (v, none)) =>
    match convOr 0 start s with
    | (s, (_, some e)) => .exc s e
    | (s, (start, none)) =>
      match convOr old stop s with
      | (s, (_, some e)) => .exc s e
      | (s, (stop, none)) =>
        let n : Int := s.size
        let start := if start < 0 then start + n else start
        let stop := if stop < 0 then stop + n else stop
        let start := if start < 0 then 0 else start
        let stop := if stop > n then n else stop
        if start > stop then .exc s .valueError
        else
          match listAt s.size stop.toNat, listAt s.size start.toNat with
          | .ok q, .ok p =>
            if q < p then .ub .badIterator
            else
              match ArrayList.findFrom s.vals p q v with
              | none => .exc s .valueError
              | some k => .ok s (.int (canon k))
          | .error u, _ => .ub u
          | _, .error u => .ub u

/-- 488-495 and 464-486, `l[i]`. -/
def get (cfg : Cfg) (s : S) (i : Live) : LLOut :=
  match conv asSsizeIndex i s with
  | (s, (_, some e)) => .exc s e
  | (s, (i, none)) => LinkedList.getItem cfg s i

/-- 557-564 and 524-541, `del l[i]`. -/
def del (s : S) (i : Live) : LLOut :=
  match conv asSsizeIndex i s with
  | (s, (_, some e)) => .exc s e
  | (s, (i, none)) => LinkedList.setItem s i none

/-- 557-564 and 524-554, `l[i] = x`: the index is checked (527-535) before the value is converted; C++17 evaluates the right
hand side of the assignment (547) first, so that the position is looked up in the list the code left. -/
def set (s : S) (i x : Live) : LLOut :=
  match conv asSsizeIndex i s with
  | (s, (_, some e)) => .exc s e
  | (s, (i, none)) =>
    let i := if i < 0 then s.size + i else i
    if i < 0 ∨ i ≥ s.size then .exc s .indexError
    else
      match conv (toElem .i32) x s with
      | (s, (v, e)) =>
        match listAt s.size i.toNat with
        | .error u => .ub u
        | .ok p =>
          if p < s.size then
            match e with
            | none => .ok (s.assign p v) .none
            | some e => .pending (s.assign p v) .none e
          else .ub .badIterator

/-! ## Slices -/

/-- 497-522, `l[a:b:c]`. -/
def getSlice (cfg : Cfg) (s : S) (sl : LSlice) : LLOut :=
  match unpack sl s with
  | (s, .error e) => .exc s e
  | (s, .ok (start, stop, step)) =>
    let (start, _, n) := adjustIndices s.size start stop step
    match LinkedList.sliceLoop s start step n.toNat 0 with
    | .error u => .ub u
    | .ok r => .ok s (.pylist (r.map (box .i32 cfg.py)))

/-- Overwriting loop of slice assignment (590-602, 605-617, 627-639) from the iterator `it` on; iterator and items that are
left are handed on. -/
def assignLoop : Nat → S → Iter → Feed → Out (S × Iter × Feed) Unit
  | 0, s, it, f => .ok (s, it, f) ()
  | _ + 1, s, it, .done g => .exc (g s, it, .done g) .indexError
  | _ + 1, s, it, .fail g e => .exc (g s, it, .done g) e
  | n + 1, s, it, .item g x k =>
    match conv (toElem .i32) x (g s) with
    | (s', (v, e)) =>
      match write s' it v with
      | .error u => .ub u
      | .ok s'' =>
        match e with
        | some e => .exc (s'', it, k s) e
        | none =>
          match succ s'' it with
          | .error u => .ub u
          | .ok it' => assignLoop n s'' it' (k s)

/-- Inserting loop of slice assignment (642-653): every item goes before the node of the same iterator. -/
def insertLoop : Nat → S → Iter → Feed → LLOut
  | 0, s, _, _ => .ok s .none
  | _ + 1, s, _, .done g => .exc (g s) .indexError
  | _ + 1, s, _, .fail g e => .exc (g s) e
  | n + 1, s, it, .item g x k =>
    match conv (toElem .i32) x (g s) with
    | (s', (v, e)) =>
      match place s' it with
      | .error u => .ub u
      | .ok p =>
        match e with
        | some e => .exc (s'.insert p v) e
        | none => insertLoop n (s'.insert p v) it (k s)

/-- Drop iterator and items. Scaffolding of the model, no code of /repo. -/
def forget : Out (S × Iter × Feed) Unit → LLOut
  | .ok (s, _) _ => .ok s .none
  | .exc (s, _) e => .exc s e
  | .pending (s, _) _ e => .pending s .none e
  | .ub u => .ub u

/-- 619-624: the nodes from `it` on are erased, `k` of them. -/
def eraseSome (s : S) (it : Iter) (k : Nat) (pend : Option Exc) : LLOut :=
  match place s it with
  | .error u => .ub u
  | .ok p =>
    match walkFwd s.size k p with
    | .error u => .ub u
    | .ok q =>
      match pend with
      | none => .ok (s.eraseRange p q) .none
      | some e => .pending (s.eraseRange p q) .none e

/-- 582-661: the part of slice assignment after the length of the sequence is known (`m`; -1 with the exception `pend` if
asking for it failed). -/
def assign (start step n m : Int) (pend : Option Exc) (s : S) (f : Feed) : LLOut :=
  if step ≠ 1 then .exc s .notImplementedError
  else
    match listAt s.size start.toNat with
    | .error u => .ub u
    | .ok p =>
      if m = n then forget (assignLoop n.toNat s (iterAt s p) f)
      else if m < n then
        match assignLoop m.toNat s (iterAt s p) f with
        | .ok (s, it, _) _ => eraseSome s it (n - m).toNat pend
        | o => forget o
      else
        match assignLoop n.toNat s (iterAt s p) f with
        | .ok (s, it, f) _ => insertLoop (m - n).toNat s it f
        | o => forget o

/-- 566-661, `l[a:b:c] = v` for a sequence of a user class: the slice is adjusted to the size (573) before the length of the
sequence is asked for (580); the position is looked up after (588). -/
def setSlice (s : S) (sl : LSlice) (v : Seq) : LLOut :=
  match unpack sl s with
  | (s, .error e) => .exc s e
  | (s, .ok (start, stop, step)) =>
    let (start, _, n) := adjustIndices s.size start stop step
    match v.len s with
    | (s', .ok m) => assign start step n m none s' (v.items s)
    | (s', .error e) => assign start step n (-1) (some e) s' (v.items s)

/-! ## Iterators -/

/-- Item loop of `extend` (221-231, `bump`) and `+=` (716-725): an item is pushed even if its conversion failed (`p` is the
exception then), and the iterator is asked once more before that is noticed. -/
def extendLoop (bump : Bool) (r : Ret) : Option Exc → S → Feed → LLOut
  | p, s, .done g =>
    let s := if bump then (g s).bump else g s
    match p with
    | none => .ok s r
    | some e => .exc s e
  | _, s, .fail g e => .exc (if bump then (g s).bump else g s) e
  | p, s, .item g x k =>
    match p with
    | some e => .exc (g s) e
    | none =>
      match conv (toElem .i32) x (g s) with
      | (s', (v, e)) => extendLoop bump r e (s'.push v) (k s)

/-- 194-240, `extend`, and 699-736, `+=`, with an iterator of a user class (`iter` is what its `__iter__` does). -/
def extend (bump : Bool) (r : Ret) (s : S) (iter : S → S) (f : Feed) : LLOut := extendLoop bump r none (iter s) f

/-! ## Comparisons -/

/-- Loop of `==` (867-882): the element is read between fetching and converting the item; the iterator advances after. -/
def eqLoop : Nat → S → Iter → Feed → LLOut
  | 0, s, _, _ => .ok s (.bool true)
  | _ + 1, s, _, .done g => .exc (g s) .indexError
  | _ + 1, s, _, .fail g e => .exc (g s) e
  | n + 1, s, it, .item g x k =>
    match deref (g s) it with
    | .error u => .ub u
    | .ok a =>
      match conv (toElem .i32) x (g s) with
      | (s', (_, some e)) => .pending s' (.bool false) e
      | (s', (b, none)) =>
        if a ≠ b then .ok s' (.bool false)
        else
          match succ s' it with
          | .error u => .ub u
          | .ok it' => eqLoop n s' it' (k s)

/-- 856-885, `==` with a sequence of a user class. -/
def eq (s : S) (v : Seq) : LLOut :=
  match v.len s with
  | (s', .error e) => .pending s' (.bool false) e
  | (s', .ok n) => if n ≠ s'.size then .ok s' (.bool false) else eqLoop n s' (iterAt s' 0) (v.items s)

/-- 887-896, `!=`: a null result of `==` is not noticed. -/
def ne (s : S) (v : Seq) : LLOut :=
  match eq s v with
  | .ok s (.bool b) => .ok s (.bool !b)
  | .pending s (.bool b) e => .pending s (.bool !b) e
  | .exc _ _ => .ub .nullDeref
  | .ub u => .ub u
  | o => o

/-- Loop of `<`, `<=`, `>`, `>=` (915-925 and the same in the others): the conversion is not checked. -/
def ordLoop (op : CmpOp) : Nat → S → Iter → Option Exc → Feed → LLOut
  | 0, s, _, p, _ => boolOut s false p
  | _ + 1, s, _, _, .done g => .exc (g s) .indexError
  | _ + 1, s, _, _, .fail g e => .exc (g s) e
  | n + 1, s, it, p, .item g x k =>
    match deref (g s) it with
    | .error u => .ub u
    | .ok a =>
      match conv (toElem .i32) x (g s) with
      | (s', (b, e)) =>
        if a ≠ b then boolOut s' (op.rel a b) (e.or p)
        else
          match succ s' it with
          | .error u => .ub u
          | .ok it' => ordLoop op n s' it' (e.or p) (k s)

/-- 898-1024, the orderings with a sequence of a user class. -/
def ord (op : CmpOp) (s : S) (v : Seq) : LLOut :=
  match v.len s with
  | (s', .error e) => .exc s' e
  | (s', .ok n) =>
    if s'.size ≠ n then .ok s' (.bool (decide (s'.size < n)))
    else ordLoop op n s' (iterAt s' 0) none (v.items s)

/-- 1026-1044. -/
def compare (op : CmpOp) (s : S) (v : Seq) : LLOut :=
  match op with
  | .eq => eq s v
  | .ne => ne s v
  | op => ord op s v

end Verif.ForeignLinked
