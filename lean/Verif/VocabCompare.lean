import Verif.Model.Base

/-!
# Python's comparison

Objects as far as comparison distinguishes them, and what the interpreter does when two of them are compared
(`PyObject_RichCompareBool`, `long_richcompare`, `unicode_richcompare`, `float_richcompare`, `tuplerichcompare`:
CPython, not code of the library). Everything else that can be called (methods of classes, comparisons between
different built-in types, subclasses of built-in types) is an oracle with its own state.
-/

namespace Verif.Key

/-- An object with its address. `int`, `str`, `float` and `tuple` are instances of exactly that class; every other
object is an `inst`. A `float` is given by its 64 bits. -/
inductive Obj
  | int (id : Nat) (p : PyLong)
  | str (id : Nat) (chars : List Nat)
  | float (id : Nat) (bits : Nat)
  | tuple (id : Nat) (items : List Obj)
  | inst (id : Nat)

/-- The address. (Vocabulary: CPython's objects and comparisons as CPythonSort.c 1208-1361 meets them.) -/
def Obj.id : Obj → Nat
  | .int i _ => i
  | .str i _ => i
  | .float i _ => i
  | .tuple i _ => i
  | .inst i => i

/-- Types. (Vocabulary: CPython's objects and comparisons as CPythonSort.c 1208-1361 meets them.) -/
inductive Ty
  | int | str | float | tuple
  | cls (n : Nat)
  deriving DecidableEq, Repr

/-- Functions found in `tp_richcompare`. (Vocabulary: CPython's objects and comparisons as CPythonSort.c 1208-1361
meets them.) -/
inductive Slot
  | long | unicode | float | tuple
  | other (n : Nat)
  deriving DecidableEq, Repr

/-- The comparisons that occur: `<`, `==`, and `>` as the mirror image of `<`. (Vocabulary: CPython's objects and
comparisons as CPythonSort.c 1208-1361 meets them.) -/
inductive Ask
  | lt | eq | gt
  deriving DecidableEq, Repr

/-- `_Py_SwappedOp`. (Vocabulary: CPython's objects and comparisons as CPythonSort.c 1208-1361 meets them.) -/
def Ask.swap : Ask → Ask
  | .lt => .gt
  | .eq => .eq
  | .gt => .lt

/-- The running interpreter: the class of each instance and the `tp_richcompare` of each class, both of which can
change; `PyType_IsSubtype`; and what a `tp_richcompare` answers, taken as a truth value (`none` =
`NotImplemented`). (Vocabulary: CPython's objects and comparisons as CPythonSort.c 1208-1361 meets them.) -/
structure World (σ : Type) where
  py : PyVer
  cls : σ → Nat → Nat
  slot : σ → Nat → Option Slot
  sub : Ty → Ty → Bool
  call : σ → Slot → Ask → Obj → Obj → Except Exc (Option Bool) × σ

variable {σ : Type}

/-- `Py_TYPE(v)`. (Vocabulary: CPython's objects and comparisons as CPythonSort.c 1208-1361 meets them.) -/
def World.ty (W : World σ) (s : σ) : Obj → Ty
  | .int _ _ => .int
  | .str _ _ => .str
  | .float _ _ => .float
  | .tuple _ _ => .tuple
  | .inst i => .cls (W.cls s i)

/-- `t->tp_richcompare`. (Vocabulary: CPython's objects and comparisons as CPythonSort.c 1208-1361 meets them.) -/
def World.slotOf (W : World σ) (s : σ) : Ty → Option Slot
  | .int => some .long
  | .str => some .unicode
  | .float => some .float
  | .tuple => some .tuple
  | .cls n => W.slot s n

/-- Comparison of the values `a` and `b` of a totally ordered kind. (Vocabulary: CPython's objects and comparisons as
CPythonSort.c 1208-1361 meets them.) -/
def Ask.ofInt (a : Ask) (x y : Int) : Bool :=
  match a with
  | .lt => decide (x < y)
  | .eq => decide (x = y)
  | .gt => decide (y < x)

/-- Difference of digit sequences of the same length, most significant digit first (`long_compare`): -1, 0, 1.
(Vocabulary: CPython's objects and comparisons as CPythonSort.c 1208-1361 meets them.) -/
def topDiff : List Nat → List Nat → Int
  | a :: as, b :: bs => if a < b then -1 else if b < a then 1 else topDiff as bs
  | _, _ => 0

/-- `_PyLong_IsCompact` (3.12 and later). -/
def _root_.Verif.PyLong.compact (p : PyLong) : Bool := decide (p.digits.length ≤ 1)

/-- `_PyLong_CompactValue` (3.12 and later). -/
def _root_.Verif.PyLong.compactValue (p : PyLong) : Int := p.sign * (p.digits.headD 0 : Nat)

/-- `long_compare`: sign and number of digits first, then the digits from the top. From 3.12 on two compact ints are
compared by their values. -/
def longCompare (py : PyVer) (p q : PyLong) : Int :=
  if py ≠ .le311 ∧ p.compact ∧ q.compact then
    (p.compactValue - q.compactValue).sign
  else
    let d := p.sign * p.digits.length - q.sign * q.digits.length
    if d ≠ 0 then d
    else
      let t := topDiff p.digits.reverse q.digits.reverse
      if p.sign < 0 then -t else t

/-- Comparison of strings: code point by code point, then by length. (Vocabulary: CPython's objects and comparisons
as CPythonSort.c 1208-1361 meets them.) -/
def strLess : List Nat → List Nat → Bool
  | [], [] => false
  | [], _ :: _ => true
  | _ :: _, [] => false
  | a :: as, b :: bs => if a = b then strLess as bs else decide (a < b)

/-- `unicode_richcompare`. (Vocabulary: CPython's objects and comparisons as CPythonSort.c 1208-1361 meets them.) -/
def Ask.ofStr (a : Ask) (x y : List Nat) : Bool :=
  match a with
  | .lt => strLess x y
  | .eq => decide (x = y)
  | .gt => strLess y x

/-- IEEE 754 binary64: not a number. -/
def isNaN (b : Nat) : Bool := decide (b / 2 ^ 52 % 2 ^ 11 = 2 ^ 11 - 1) && decide (b % 2 ^ 52 ≠ 0)

/-- Position of a double that is a number among all numbers; both zeros are at 0. (Vocabulary: CPython's objects and
comparisons as CPythonSort.c 1208-1361 meets them.) -/
def dblKey (b : Nat) : Int := if b / 2 ^ 63 % 2 = 1 then -((b % 2 ^ 63 : Nat) : Int) else (b % 2 ^ 63 : Nat)

/-- `<`, `==`, `>` of C on doubles (IEEE 754): false if either is not a number. -/
def Ask.ofDouble (a : Ask) (x y : Nat) : Bool := !isNaN x && !isNaN y && a.ofInt (dblKey x) (dblKey y)

/-- The answer `r` of a `tp_richcompare`; `NotImplemented` goes on with `k`. (Vocabulary: CPython's objects and
comparisons as CPythonSort.c 1208-1361 meets them.) -/
def orElse (r : Except Exc (Option Bool) × σ) (k : σ → Except Exc Bool × σ) : Except Exc Bool × σ :=
  match r with
  | (.error e, s) => (.error e, s)
  | (.ok (some b), s) => (.ok b, s)
  | (.ok none, s) => k s

mutual

/-- `PyObject_RichCompareBool(v, w, a)` with `do_richcompare`: identical objects are equal; the reflected method of a
proper subclass goes first; then the method of `v`; then the reflected method of `w`; then identity for `==`,
TypeError for the others. (Vocabulary: CPython's objects and comparisons as CPythonSort.c 1208-1361 meets them.) -/
def richBool (W : World σ) (a : Ask) (s : σ) (v w : Obj) : Except Exc Bool × σ :=
  if a = .eq ∧ v.id = w.id then (.ok true, s)
  else
    let first := decide (W.ty s v ≠ W.ty s w) && W.sub (W.ty s w) (W.ty s v) && (W.slotOf s (W.ty s w)).isSome
    orElse (if first then slotCall W (W.slotOf s (W.ty s w)) a.swap s w v else (.ok none, s)) fun s =>
    orElse (slotCall W (W.slotOf s (W.ty s v)) a s v w) fun s =>
    orElse (if first then (.ok none, s) else slotCall W (W.slotOf s (W.ty s w)) a.swap s w v) fun s =>
    match a with
    | .eq => (.ok false, s)
    | _ => (.error .typeError, s)
termination_by (sizeOf v + sizeOf w, 2)
decreasing_by all_goals exact Prod.Lex.right' _ (by omega) (Nat.lt_succ_self 1)

/-- A call of `tp_richcompare`; a type without one answers `NotImplemented`. (Vocabulary: CPython's objects and
comparisons as CPythonSort.c 1208-1361 meets them.) -/
def slotCall (W : World σ) (fn : Option Slot) (a : Ask) (s : σ) (v w : Obj) : Except Exc (Option Bool) × σ :=
  match fn, v, w with
  | none, _, _ => (.ok none, s)
  | some .long, .int _ p, .int _ q => (.ok (some (a.ofInt (longCompare W.py p q) 0)), s)
  | some .unicode, .str _ x, .str _ y => (.ok (some (a.ofStr x y)), s)
  | some .float, .float _ x, .float _ y => (.ok (some (a.ofDouble x y)), s)
  | some .tuple, .tuple _ xs, .tuple _ ys =>
    match tupleAsk W a s xs ys with
    | (.ok b, s) => (.ok (some b), s)
    | (.error e, s) => (.error e, s)
  | some fn, v, w => W.call s fn a v w
termination_by (sizeOf v + sizeOf w, 1)
decreasing_by all_goals (simp only [Prod.lex_def, Obj.tuple.sizeOf_spec]; omega)

/-- `tuplerichcompare`: the first items that are not equal decide; if there are none, the lengths. (Vocabulary:
CPython's objects and comparisons as CPythonSort.c 1208-1361 meets them.) -/
def tupleAsk (W : World σ) (a : Ask) (s : σ) (xs ys : List Obj) : Except Exc Bool × σ :=
  match xs, ys with
  | x :: xs, y :: ys =>
    match richBool W .eq s x y with
    | (.error e, s) => (.error e, s)
    | (.ok true, s) => tupleAsk W a s xs ys
    | (.ok false, s) => if a = .eq then (.ok false, s) else richBool W a s x y
  | xs, ys => (.ok (a.ofInt xs.length ys.length), s)
termination_by (sizeOf xs + sizeOf ys, 0)
decreasing_by all_goals (simp only [Prod.lex_def, List.cons.sizeOf_spec]; omega)

end

/-- Python's `v < w`, as a truth value. (Vocabulary: CPython's objects and comparisons as CPythonSort.c 1208-1361
meets them.) -/
def World.less (W : World σ) (s : σ) (v w : Obj) : Except Exc Bool × σ := richBool W .lt s v w

end Verif.Key
