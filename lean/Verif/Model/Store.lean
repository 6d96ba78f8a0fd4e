import Verif.Model.IntArrayList

/-!
# Several int array lists in one memory

The storage side of IntArrayList.cpp / BigIntArrayList.cpp (line numbers of the former): each list object owns a
`std::vector`, i.e. a block of the allocator, and memoryviews hold raw pointers into blocks. What a call stores and
returns is `ArrayList.step` on the contents read from the block; here we add where it is stored.

Simplified: a call that outgrows the block several times is one reallocation; the allocator never fails and does not
hand out the same block twice (so a stale pointer never points to a live block by accident); lists that `*` and `+`
return are values, not objects of this memory. Sorting is not an event here.
-/

namespace Verif.Store

/-- `std::vector`: pointer to the block (null if nothing was allocated) and size; the capacity is that of the block.
(IntArrayList.h: `vector`.) -/
structure Vec where
  blk : Option Nat
  size : Nat
  deriving DecidableEq, Repr

/-- `Py_buffer` as `get_buffer` fills it in (1157-1160), with the list it came from: pointer and number of elements. -/
structure View where
  of : Nat
  blk : Option Nat
  len : Nat
  deriving DecidableEq, Repr

/-- Blocks (cells of the whole capacity), list objects, memoryviews, next unused block. Scaffolding of the model, no
code of /repo. -/
structure World where
  mem : Nat → Option (List Int)
  objs : Nat → Option Vec
  views : Nat → Option View
  next : Nat

/-- Binary operations whose right operand is a list object. Scaffolding of the model, no code of /repo. -/
inductive Binary
  | extend
  | iadd
  | add
  | cmp (op : CmpOp)
  | setSlice (s : SliceArg)
  deriving DecidableEq, Repr

/-- Events. `hint` is what the operand's `__length_hint__` answers when it is an iterator; `garbage` is what the
consumer's `Py_buffer.obj` holds beforehand. Scaffolding of the model, no code of /repo. -/
inductive Ev
  | create (o : Nat) (arg : Option (Int ⊕ Src)) (exceptSize : Nat)
  | call (o : Nat) (op : Op) (hint : Nat)
  | callOn (o p : Nat) (b : Binary)
  | copy (o c : Nat)
  | drop (o : Nat)
  | view (o id : Nat)
  | read (id i : Nat)
  | write (id i : Nat) (v : Int)
  | release (id : Nat)
  | bytes (o garbage : Nat)
  deriving DecidableEq, Repr

/-- Answers. Scaffolding of the model, no code of /repo. -/
inductive Ans
  | none
  | ret (r : Ret)
  | int (v : Int)
  | ints (l : List Int)
  deriving DecidableEq, Repr

/-- Pointwise update. Scaffolding of the model, no code of /repo. -/
def upd {α : Type} (f : Nat → α) (i : Nat) (v : α) : Nat → α := fun j => if j = i then v else f j

/-- Cells of a vector; `none` = the block is not live. Scaffolding of the model, no code of /repo. -/
def cells (w : World) (v : Vec) : Option (List Int) :=
  match v.blk with
  | none => some []
  | some b => w.mem b

/-- Elements of a list object. Scaffolding of the model, no code of /repo. -/
def contents (w : World) (o : Nat) : Option (List Int) :=
  match w.objs o with
  | none => none
  | some v => (cells w v).map (·.take v.size)

/-- `reserve(size + hint)` before the item loop of `extend` and `+=` (264-267, 755-758): the length of a sized operand,
the answer of an iterator, 0 if neither is there. The other calls reserve nothing. -/
def reserved (op : Op) (hint : Nat) : Nat :=
  match op with
  | .extend s | .iadd s =>
    match s with
    | .list xs | .tuple xs | .seq xs => xs.length
    | .iter _ _ => hint
    | _ => 0
  | _ => 0

/-- Capacity after making room for `need` elements; `grow` is the growth policy of `std::vector`. (libstdc++; through
IntArrayList.cpp 53, 78, 142, 175, 230, 280, 805, 847.) -/
def room (grow : Nat → Nat → Nat) (cap need : Nat) : Nat := if need ≤ cap then cap else grow cap need

/-- Put the elements `l` into the vector `v` of the object `o`, whose cells are `cs`, having asked for room for `need`
elements: in place, or in a new block after which the old one is freed. (libstdc++; through IntArrayList.cpp 78, 142,
175, 230, 280, 805, 847.) -/
def put (grow : Nat → Nat → Nat) (w : World) (o : Nat) (v : Vec) (cs l : List Int) (need : Nat) : World :=
  if need ≤ cs.length then
    match v.blk with
    | none => { w with objs := upd w.objs o (some ⟨none, l.length⟩) }
    | some b => { w with mem := upd w.mem b (some (l ++ cs.drop l.length)), objs := upd w.objs o (some ⟨some b, l.length⟩) }
  else
    let mem := match v.blk with
      | none => w.mem
      | some b => upd w.mem b none
    { w with
      mem := upd mem w.next (some (l ++ List.replicate (grow cs.length need - l.length) 0))
      objs := upd w.objs o (some ⟨some w.next, l.length⟩)
      next := w.next + 1 }

/-- A call of the API on the object `o`. Scaffolding of the model, no code of /repo. -/
def callOp (cfg : Cfg) (K : Kind) (grow : Nat → Nat → Nat) (w : World) (o : Nat) (op : Op) (hint : Nat) : Out World Ans :=
  match w.objs o with
  | none => .exc w .typeError
  | some v =>
    match cells w v with
    | none => .ub .useAfterFree
    | some cs =>
      let l := cs.take v.size
      match ArrayList.step cfg K l op with
      | .ok l' r => .ok (put grow w o v cs l' (max l'.length (l.length + reserved op hint))) (.ret r)
      | .exc l' e => .exc (put grow w o v cs l' (max l'.length (l.length + reserved op hint))) e
      | .pending l' r e => .pending (put grow w o v cs l' (max l'.length (l.length + reserved op hint))) (.ret r) e
      | .ub u => .ub u

/-- The call with the operand filled in. Scaffolding of the model, no code of /repo. -/
def Binary.op (b : Binary) (s : Src) : Op :=
  match b with
  | .extend => .extend s
  | .iadd => .iadd s
  | .add => .add s
  | .cmp c => .cmp c s
  | .setSlice k => .set (.slice k) (.inr s)

/-- A new object with the elements `l` in a block of capacity `cap`. (IntArrayList.cpp 42-111.) -/
def fresh (w : World) (o : Nat) (l : List Int) (cap : Nat) : World :=
  if cap = 0 then { w with objs := upd w.objs o (some ⟨none, 0⟩) }
  else
    { w with
      mem := upd w.mem w.next (some (l ++ List.replicate (cap - l.length) 0))
      objs := upd w.objs o (some ⟨some w.next, l.length⟩)
      next := w.next + 1 }

/-- One event. (IntArrayList.cpp 42-116, 1153-1170 and the methods, by event.) -/
def step (cfg : Cfg) (K : Kind) (grow : Nat → Nat → Nat) (w : World) : Ev → Out World Ans
  | .create o arg n =>                                       -- 42-111; `reserve(exceptSize)` 52-54
    match w.objs o with
    | some _ => .exc w .typeError
    | none =>
      match ArrayList.init K arg with
      | .ok l _ => .ok (fresh w o l (room grow (room grow 0 n) l.length)) .none
      | .exc _ e => .exc w e
      | .pending l _ e => .pending (fresh w o l (room grow (room grow 0 n) l.length)) .none e
      | .ub u => .ub u
  | .call o op hint => callOp cfg K grow w o op hint
  | .callOn o p b =>
    if o = p then callOp cfg K grow w o (b.op .self) 0
    else
      match w.objs p with
      | none => .exc w .typeError
      | some v =>
        match cells w v with
        | none => .ub .useAfterFree
        | some cs => callOp cfg K grow w o (b.op (.same (cs.take v.size))) 0
  | .copy o c =>                                             -- 204-219; assignment allocates what is needed
    match w.objs o, w.objs c with
    | some v, none =>
      match cells w v with
      | none => .ub .useAfterFree
      | some cs => .ok (fresh w c (cs.take v.size) (cs.take v.size).length) .none
    | _, _ => .exc w .typeError
  | .drop o =>                                               -- 113-116; no view keeps the list alive
    match w.objs o with
    | none => .exc w .typeError
    | some v =>
      match v.blk with
      | none => .ok { w with objs := upd w.objs o none } .none
      | some b => .ok { w with objs := upd w.objs o none, mem := upd w.mem b none } .none
  | .view o id =>                                            -- 1153-1170; `view->obj` is not set
    match w.objs o, w.views id with
    | some v, none => .ok { w with views := upd w.views id (some ⟨o, v.blk, v.size⟩) } .none
    | _, _ => .exc w .typeError
  | .read id i =>                                            -- memoryview: bounds check against the recorded length
    match w.views id with
    | none => .exc w .valueError
    | some x =>
      if i < x.len then
        match x.blk with
        | none => .ub .nullDeref
        | some b =>
          match w.mem b with
          | none => .ub .useAfterFree
          | some cs =>
            match cs[i]? with
            | none => .ub .outOfBounds
            | some v => .ok w (.int v)
      else .exc w .indexError
  | .write id i v =>
    match w.views id with
    | none => .exc w .valueError
    | some x =>
      if i < x.len then
        match x.blk with
        | none => .ub .nullDeref
        | some b =>
          match w.mem b with
          | none => .ub .useAfterFree
          | some cs =>
            if i < cs.length then .ok { w with mem := upd w.mem b (some (cs.set i v)) } .none else .ub .outOfBounds
      else .exc w .indexError
  | .release id => .ok { w with views := upd w.views id none } .none
  | .bytes o garbage =>                                      -- `bytes(l)`: the interpreter's own consumer of 1153-1170
    match w.objs o with
    | none => .exc w .typeError
    | some v =>
      match cells w v with
      | none => .ub .useAfterFree
      | some cs => if garbage = 0 then .ok w (.ints (cs.take v.size)) else .ub .typeConfusion

/-- Start of the program: no list. Scaffolding of the model, no code of /repo. -/
def start : World := ⟨fun _ => none, fun _ => none, fun _ => none, 0⟩

/-- World after a history; `none` after undefined behaviour. Scaffolding of the model, no code of /repo. -/
def run (cfg : Cfg) (K : Kind) (grow : Nat → Nat → Nat) (w : World) : List Ev → Option World
  | [] => some w
  | e :: es =>
    match (step cfg K grow w e).state? with
    | none => none
    | some w' => run cfg K grow w' es

end Verif.Store
