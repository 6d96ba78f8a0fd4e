import Verif.VocabForeign
import Verif.Model.IntArrayList

/-!
# Python code inside a call

IntArrayList.cpp (line numbers) and BigIntArrayList.cpp once more, where arguments, iterators and sequences are objects of
user classes: their `__index__`, `__next__`, `__getitem__`, `__len__` and `__length_hint__` run Python code in the middle
of a call, and that code may use the very list (or raise). What matters is when the methods look at the list.

Such code is a function: it finds the list with the elements `l` and leaves it with the elements `g l`. Simplified: a
`__length_hint__` does not raise (see C68); garbage collections, which may run finalisers at any allocation, are not considered.
-/

namespace Verif.Foreign

open Verif.ArrayList

variable {σ : Type}

/-- A conversion function of the C-API applied to a user object. (Called at IntArrayList.cpp 36, 72, 92, 168, 224 and
so on.) -/
def conv (c : Arg → CRes) (x : Live σ) (l : σ) : σ × CRes :=
  match x.run l with
  | (l', .ok v) => (l', c (.index v))
  | (l', .error e) => (l', (-1, some e))

/-- 221-237, `append`. -/
def append (K : Kind) (l : List Int) (x : Live) : LOut :=
  match conv (toElem K) x l with
  | (l, (_, some e)) => .exc l e
  | (l, (v, none)) => .ok (l ++ [v]) .none

/-- 396-423, `insert`: both arguments are parsed before the size is read (407). -/
def insert (K : Kind) (l : List Int) (i x : Live) : LOut :=
  match conv parseN i l with
  | (l, (_, some e)) => .exc l e
  | (l, (i, none)) =>
    match conv (parseElem K) x l with
    | (l, (_, some e)) => .exc l e
    | (l, (v, none)) =>
      let n : Int := l.length
      let i := if i < 0 then max 0 (n + i) else if i > n then n else i
      if 0 ≤ i ∧ i ≤ n then .ok (l.take i.toNat ++ v :: l.drop i.toNat) .none
      else .ub .badIterator

/-- 425-448, `remove`. -/
def remove (K : Kind) (l : List Int) (x : Live) : LOut :=
  match conv (toElem K) x l with
  | (l, (_, some e)) => .exc l e
  | (l, (v, none)) =>
    match findFrom l 0 l.length v with
    | none => .exc l .valueError
    | some k => .ok (l.eraseIdx k) .none

/-- 378-394, `count`: the exception is looked for only if the value is -1. -/
def count (K : Kind) (l : List Int) (x : Live) : LOut :=
  match conv (toElem K) x l with
  | (l, (v, e)) =>
    match (if v = -1 then e else none) with
    | some e => .exc l e
    | none => .ok l (.int (canon (l.count v)))

/-- An optional argument with its default. (IntArrayList.cpp 344, 402: the part of the format after `|`.) -/
def convOr (d : Int) (x : Option (Live σ)) (l : σ) : σ × CRes :=
  match x with
  | none => (l, (d, none))
  | some x => conv parseN x l

/-- 337-376, `index`: the default of `stop` is the size before the arguments are parsed (342). -/
def index (K : Kind) (l : List Int) (x : Live) (start stop : Option Live) : LOut :=
  let old : Int := l.length
  match conv (parseElem K) x l with
  | (l, (_, some e)) => .exc l e
  | (l, (v, none)) =>
    match convOr 0 start l with
    | (l, (_, some e)) => .exc l e
    | (l, (start, none)) =>
      match convOr old stop l with
      | (l, (_, some e)) => .exc l e
      | (l, (stop, none)) =>
        let n : Int := l.length
        let start := if start < 0 then start + n else start
        let stop := if stop < 0 then stop + n else stop
        let start := if start < 0 then 0 else start
        let stop := if stop > n then n else stop
        if start > stop then .exc l .valueError
        else if stop < 0 then .ub .badIterator
        else
          match findFrom l start.toNat stop.toNat v with
          | none => .exc l .valueError
          | some k => .ok l (.int (canon k))

/-- 533-540, `l[i]`. -/
def get (cfg : Cfg) (K : Kind) (l : List Int) (i : Live) : LOut :=
  match conv asSsizeIndex i l with
  | (l, (_, some e)) => .exc l e
  | (l, (i, none)) => getItem cfg K l i

/-- 600-607 and 568-581, `del l[i]`. -/
def del (l : List Int) (i : Live) : LOut :=
  match conv asSsizeIndex i l with
  | (l, (_, some e)) => .exc l e
  | (l, (i, none)) =>
    let i := if i < 0 then l.length + i else i
    if i < 0 ∨ i ≥ l.length then .exc l .indexError
    else if i.toNat < l.length then .ok (l.eraseIdx i.toNat) .none else .ub .badIterator

/-- 600-607 and 568-597, `l[i] = x`: the index is checked (571-579) before the value is converted (585). -/
def set (K : Kind) (l : List Int) (i x : Live) : LOut :=
  match conv asSsizeIndex i l with
  | (l, (_, some e)) => .exc l e
  | (l, (i, none)) =>
    let i := if i < 0 then l.length + i else i
    if i < 0 ∨ i ≥ l.length then .exc l .indexError
    else
      match conv (toElem K) x l with
      | (l, (_, some e)) => .exc l e
      | (l, (v, none)) => if i.toNat < l.length then .ok (l.set i.toNat v) .none else .ub .outOfBounds

/-! ## Slices -/

/-- One field of a slice. (CPython; through IntArrayList.cpp 545, 612.) -/
def field (x : Option (Live σ)) (l : σ) : σ × Except Exc (Option Arg) :=
  match x with
  | none => (l, .ok none)
  | some x =>
    match x.run l with
    | (l, .ok v) => (l, .ok (some (.index v)))
    | (l, .error e) => (l, .error e)

/-- `PySlice_Unpack`: step, start, stop. A step of zero is rejected before the others are looked at. (CPython; called
at IntArrayList.cpp 545, 612.) -/
def unpack (s : LSlice σ) (l : σ) : σ × Except Exc (Int × Int × Int) :=
  match field s.step l with
  | (l, .error e) => (l, .error e)
  | (l, .ok c) =>
    match sliceStep c with
    | .error e => (l, .error e)
    | .ok _ =>
      match field s.start l with
      | (l, .error e) => (l, .error e)
      | (l, .ok a) =>
        match field s.stop l with
        | (l, .error e) => (l, .error e)
        | (l, .ok b) => (l, sliceUnpack ⟨a, b, c⟩)

/-- 543-566, `l[a:b:c]`. -/
def getSlice (cfg : Cfg) (K : Kind) (l : List Int) (s : LSlice) : LOut :=
  match unpack s l with
  | (l, .error e) => .exc l e
  | (l, .ok (start, stop, step)) =>
    let (start, _, n) := adjustIndices l.length start stop step
    match sliceLoop l start step n.toNat 0 with
    | .error u => .ub u
    | .ok r => .ok l (.pylist (r.map (box K cfg.py)))

/-- Overwriting loop of slice assignment (633-644, 646-657, 664-675): `n` items from position `start` on; the items that
are left are handed on. -/
def assignLoop (K : Kind) (start : Nat) : Nat → Nat → List Int → Feed → Out (List Int × Feed) Unit
  | 0, _, l, f => .ok (l, f) ()
  | _ + 1, _, l, .done g => .exc (g l, .done g) .indexError
  | _ + 1, _, l, .fail g e => .exc (g l, .done g) e
  | n + 1, i, l, .item g x k =>
    match conv (toElem K) x (g l) with
    | (l', (v, e)) =>
      if start + i < l'.length then
        match e with
        | some e => .exc (l'.set (start + i) v, k l) e
        | none => assignLoop K start n (i + 1) (l'.set (start + i) v) (k l)
      else .ub .outOfBounds

/-- Inserting loop of slice assignment (677-691). C++ leaves open whether the position (684) is computed before the item
is converted (685): with `early` it is, and an iterator into a list that the conversion has changed since is invalid. -/
def insertLoop (early : Bool) (K : Kind) (start : Nat) : Nat → Nat → List Int → Feed → LOut
  | 0, _, l, _ => .ok l .none
  | _ + 1, _, l, .done g => .exc (g l) .indexError
  | _ + 1, _, l, .fail g e => .exc (g l) e
  | n + 1, i, l, .item g x k =>
    match conv (toElem K) x (g l) with
    | (l', (v, e)) =>
      if start + i ≤ l'.length ∧ (early = true → l' = g l) then
        let l'' := l'.take (start + i) ++ v :: l'.drop (start + i)
        match e with
        | some e => .exc l'' e
        | none => insertLoop early K start n (i + 1) l'' (k l)
      else .ub .badIterator

/-- Drop the items that are left. Scaffolding of the model, no code of /repo. -/
def forget : Out (List Int × Feed) Unit → LOut
  | .ok (l, _) _ => .ok l .none
  | .exc (l, _) e => .exc l e
  | .pending (l, _) _ e => .pending l .none e
  | .ub u => .ub u

/-- 625-700: the part of slice assignment after the length of the sequence is known (`m`; -1 with the exception `pend` if
asking for it failed). -/
def assign (early : Bool) (K : Kind) (start stop step n m : Int) (pend : Option Exc) (l : List Int) (f : Feed) : LOut :=
  if step ≠ 1 then .exc l .notImplementedError
  else if m = n then forget (assignLoop K start.toNat n.toNat 0 l f)
  else if m < n then
    match assignLoop K start.toNat m.toNat 0 l f with
    | .ok (l, _) _ =>
      if 0 ≤ start + m ∧ start + m ≤ stop ∧ stop ≤ l.length then
        let l' := l.take (start + m).toNat ++ l.drop stop.toNat
        match pend with
        | none => .ok l' .none
        | some e => .pending l' .none e
      else .ub .badIterator
    | o => forget o
  else
    match assignLoop K start.toNat n.toNat 0 l f with
    | .ok (l, f) _ => insertLoop early K start.toNat (m - n).toNat n.toNat l f
    | o => forget o

/-- 609-700, `l[a:b:c] = v` for a sequence of a user class: the slice is adjusted to the size (616) before the length of
the sequence is asked for (623). -/
def setSlice (early : Bool) (K : Kind) (l : List Int) (s : LSlice) (v : Seq) : LOut :=
  match unpack s l with
  | (l, .error e) => .exc l e
  | (l, .ok (start, stop, step)) =>
    let (start, stop, n) := adjustIndices l.length start stop step
    match v.len l with
    | (l', .ok m) => assign early K start stop step n m none l' (v.items l)
    | (l', .error e) => assign early K start stop step n (-1) (some e) l' (v.items l)

/-! ## Iterators -/

/-- Item loop of `extend` and `+=` (270-289, 760-782). -/
def extendLoop (K : Kind) (r : Ret) : List Int → Feed → LOut
  | l, .done g => .ok (g l) r
  | l, .fail g e => .exc (g l) e
  | l, .item g x k =>
    match conv (toElem K) x (g l) with
    | (l', (_, some e)) => .exc l' e
    | (l', (v, none)) => extendLoop K r (l' ++ [v]) (k l)

/-- 257-289, `extend` and 748-782, `+=` (`r` is the result): `__iter__` and `__length_hint__` run first (`hint`). -/
def extend (K : Kind) (r : Ret) (l : List Int) (hint : List Int → List Int) (f : Feed) : LOut := extendLoop K r (hint l) f

/-! ## Comparisons -/

/-- Loop of `==` (936-950): the element of the list is read between fetching and converting the item. -/
def eqLoop (K : Kind) : Nat → Nat → List Int → Feed → LOut
  | 0, _, l, _ => .ok l (.bool true)
  | _ + 1, _, l, .done g => .exc (g l) .indexError
  | _ + 1, _, l, .fail g e => .exc (g l) e
  | n + 1, i, l, .item g x k =>
    match (g l)[i]? with
    | none => .ub .outOfBounds
    | some a =>
      match conv (toElem K) x (g l) with
      | (l', (_, some e)) => .pending l' (.bool false) e
      | (l', (b, none)) => if a ≠ b then .ok l' (.bool false) else eqLoop K n (i + 1) l' (k l)

/-- 914-951, `==` with a sequence of a user class. -/
def eq (K : Kind) (l : List Int) (v : Seq) : LOut :=
  match v.len l with
  | (l', .error e) => .pending l' (.bool false) e
  | (l', .ok n) => if n ≠ l'.length then .ok l' (.bool false) else eqLoop K n 0 l' (v.items l)

/-- 953-962, `!=`: a null result of `==` is not noticed. -/
def ne (K : Kind) (l : List Int) (v : Seq) : LOut :=
  match eq K l v with
  | .ok l (.bool b) => .ok l (.bool !b)
  | .pending l (.bool b) e => .pending l (.bool !b) e
  | .exc _ _ => .ub .nullDeref
  | .ub u => .ub u
  | o => o

/-- Loop of `<`, `<=`, `>`, `>=` (985-993 and the same in the others): the conversion is not checked. -/
def ordLoop (K : Kind) (op : CmpOp) (seqSize : Int) : Nat → Nat → List Int → Option Exc → Feed → LOut
  | 0, _, l, p, _ => boolOut l (op.rel l.length seqSize) p
  | _ + 1, _, l, _, .done g => .exc (g l) .indexError
  | _ + 1, _, l, _, .fail g e => .exc (g l) e
  | n + 1, i, l, p, .item g x k =>
    match (g l)[i]? with
    | none => .ub .outOfBounds
    | some a =>
      match conv (toElem K) x (g l) with
      | (l', (b, e)) =>
        if a ≠ b then boolOut l' (op.rel a b) (e.or p) else ordLoop K op seqSize n (i + 1) l' (e.or p) (k l)

/-- 964-1090, the orderings with a sequence of a user class. -/
def ord (K : Kind) (op : CmpOp) (l : List Int) (v : Seq) : LOut :=
  match v.len l with
  | (l', .error e) => boolOut l' (op.rel l'.length (2 ^ 64 - 1)) (some e)
  | (l', .ok n) => ordLoop K op n (min l'.length n) 0 l' none (v.items l)

/-- 1092-1110. -/
def compare (K : Kind) (op : CmpOp) (l : List Int) (v : Seq) : LOut :=
  match op with
  | .eq => eq K l v
  | .ne => ne K l v
  | op => ord K op l v

end Verif.Foreign
