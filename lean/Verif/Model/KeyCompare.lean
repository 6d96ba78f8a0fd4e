import Verif.VocabCompare
import Verif.Model.CPySort

/-!
# `utils/include/CPythonSort.c`: the pre-sort check and the special-case comparisons

Lines 1208-1361 (the comparison functions) and 1448-1540 (the choice among them), and `CPython_sort` with them.
The functions that make assumptions about their operands have a separate outcome `undef` for operands that violate
them (a failed `assert`, or a read of the wrong kind of object when assertions are off).
-/

namespace Verif.KeyCompare

open Verif.Key
open Verif.CPySort (Fault Host sortSlots keysOf)

variable {σ ε κ ν : Type}

/-- Result of a comparison function: -1 with an exception, or 0/1. (CPythonSort.c 1208-1361.) -/
inductive Res
  | undef
  | raised (e : Exc)
  | ans (b : Bool)
  deriving DecidableEq, Repr

/-- The result of `PyObject_RichCompareBool`, passed on. (CPythonSort.c 1216.) -/
def pass : Except Exc Bool × σ → Res × σ
  | (.ok b, s) => (.ans b, s)
  | (.error e, s) => (.raised e, s)

/-- The values of `ms->key_compare` and `ms->tuple_elem_compare` other than `unsafe_tuple_compare`; `object` with
`ms->key_richcompare`. (CPythonSort.c 1513-1536.) -/
inductive Cmp
  | safe | object (fn : Slot) | latin | long | float
  deriving DecidableEq, Repr

/-- `PyUnicode_KIND(v) == PyUnicode_1BYTE_KIND`: CPython keeps strings in the smallest kind. -/
def latin (cs : List Nat) : Bool := cs.all (· < 256)

/-- `memcmp` on two sequences of bytes. (C library; called at CPythonSort.c 1271.) -/
def memcmp : List Nat → List Nat → Int
  | a :: as, b :: bs => if a = b then memcmp as bs else if a < b then -1 else 1
  | _, _ => 0

/-- `unsafe_object_compare` (1223-1255). -/
def objectCompare (W : World σ) (fn : Slot) (s : σ) (v w : Obj) : Res × σ :=
  if W.slotOf s (W.ty s v) ≠ some fn then pass (W.less s v w)
  else
    match slotCall W (some fn) .lt s v w with
    | (.ok none, s) => pass (W.less s v w)
    | (.error e, s) => (.raised e, s)
    | (.ok (some b), s) => (.ans b, s)

/-- `unsafe_latin_compare` (1258-1279) with its assertions. -/
def latinCompare (v w : Obj) : Res :=
  match v, w with
  | .str _ x, .str _ y =>
    if latin x && latin y then
      let len := min x.length y.length
      let r := memcmp (x.take len) (y.take len)
      .ans (if r ≠ 0 then decide (r < 0) else decide (x.length < y.length))
    else .undef
  | _, _ => .undef

/-- `unsafe_long_compare` (1282-1307) with its assertions. Up to 3.11 `PyLong_AsSsize_t` gives -1 for a value that
does not fit; the exception it sets is not represented. -/
def longCompareRun (py : PyVer) (v w : Obj) : Res :=
  match v, w with
  | .int _ p, .int _ q =>
    if py = .le311 then
      let a := if FitsS 64 p.value then p.value else -1
      let b := if FitsS 64 q.value then q.value else -1
      .ans (decide (a < b))
    else if p.compact && q.compact then .ans (decide (p.compactValue < q.compactValue))
    else .undef
  | _, _ => .undef

/-- `unsafe_float_compare` (1310-1322) with its assertions. -/
def floatCompare (v w : Obj) : Res :=
  match v, w with
  | .float _ x, .float _ y => .ans (Ask.lt.ofDouble x y)
  | _, _ => .undef

/-- A call through `ms->key_compare` / `ms->tuple_elem_compare`; `safe_object_compare` is 1212-1217. -/
def Cmp.run (W : World σ) (c : Cmp) (s : σ) (v w : Obj) : Res × σ :=
  match c with
  | .safe => pass (W.less s v w)
  | .object fn => objectCompare W fn s v w
  | .latin => (latinCompare v w, s)
  | .long => (longCompareRun W.py v w, s)
  | .float => (floatCompare v w, s)

/-- The loop of `unsafe_tuple_compare` (1348-1354): the index at which it stops. -/
def firstDiff (W : World σ) (s : σ) (xs ys : List Obj) (i : Nat) : Except Exc Nat × σ :=
  match xs, ys with
  | x :: xs, y :: ys =>
    match richBool W .eq s x y with
    | (.error e, s) => (.error e, s)
    | (.ok false, s) => (.ok i, s)
    | (.ok true, s) => firstDiff W s xs ys (i + 1)
  | _, _ => (.ok i, s)

/-- `unsafe_tuple_compare` (1330-1363) with its assertions. -/
def tupleCompare (W : World σ) (elem : Cmp) (s : σ) (v w : Obj) : Res × σ :=
  match v, w with
  | .tuple _ xs, .tuple _ ys =>
    if xs.isEmpty || ys.isEmpty then (.undef, s)
    else
      match firstDiff W s xs ys 0 with
      | (.error e, s) => (.raised e, s)
      | (.ok i, s) =>
        match xs[i]?, ys[i]? with
        | some x, some y => if i = 0 then elem.run W s x y else pass (W.less s x y)
        | _, _ => (.ans (decide (xs.length < ys.length)), s)
  | _, _ => (.undef, s)

/-- `ms->key_compare` after the check. (CPythonSort.c 1513-1536.) -/
inductive Chosen
  | plain (c : Cmp)
  | tuples (elem : Cmp)
  deriving DecidableEq, Repr

/-- `ISLT` (104). -/
def Chosen.run (W : World σ) (c : Chosen) (s : σ) (v w : Obj) : Res × σ :=
  match c with
  | .plain c => c.run W s v w
  | .tuples elem => tupleCompare W elem s v w

/-- `Py_IS_TYPE(v, &PyTuple_Type) && Py_SIZE(v) > 0`, and then `PyTuple_GET_ITEM(v, 0)`. (CPythonSort.c 1454-1455.) -/
def tupleHead : Obj → Option Obj
  | .tuple _ (x :: _) => some x
  | _ => none

/-- `_PyLong_IsCompact` as the check uses it (1491-1496): up to 3.11 the test is not compiled in, so that no int
passes for bounded. -/
def bounded (py : PyVer) : Obj → Bool
  | .int _ p => py ≠ .le311 && p.compact
  | _ => false

/-- `PyUnicode_KIND(key) == PyUnicode_1BYTE_KIND`. (CPythonSort.c 1502.) -/
def isLatin : Obj → Bool
  | .str _ cs => latin cs
  | _ => false

/-- The four variables of the check (1453-1465). -/
structure Flags where
  inTuples : Bool
  sameType : Bool
  strings : Bool
  ints : Bool
  deriving DecidableEq, Repr

/-- The loop of the check (1468-1507); `kt` is `key_type`. -/
def scan (W : World σ) (s : σ) (kt : Ty) (f : Flags) : List Obj → Flags
  | [] => f
  | k :: ks =>
    match f.inTuples, tupleHead k with
    | true, none => { f with inTuples := false, sameType := false }
    | _, h =>
      let key := if f.inTuples then h.getD k else k
      let fits := decide (W.ty s key = kt)
      let f := if fits then f else { f with sameType := false }
      if !fits && !f.inTuples then f
      else
        let f :=
          if f.sameType then
            if kt = .int ∧ f.ints ∧ !bounded W.py key then { f with ints := false }
            else if kt = .str ∧ f.strings ∧ !isLatin key then { f with strings := false }
            else f
          else f
        scan W s kt f ks

/-- The type of the first key, or of the first item if the first key is a non-empty tuple (1455-1461). -/
def keyType (W : World σ) (s : σ) (k : Obj) : Ty := W.ty s ((tupleHead k).getD k)

/-- The choice for the keys or their first items (1510-1525). -/
def pick (W : World σ) (s : σ) (kt : Ty) (f : Flags) : Cmp :=
  if f.sameType then
    if kt = .str ∧ f.strings then .latin
    else if kt = .int ∧ f.ints then .long
    else if kt = .float then .float
    else
      match W.slotOf s kt with
      | some fn => .object fn
      | none => .safe
  else .safe

/-- The pre-sort check (1453-1539) on the keys. With fewer than two keys nothing is chosen and nothing is compared. -/
def choose (W : World σ) (s : σ) (keys : List Obj) : Chosen :=
  match keys with
  | k :: _ :: _ =>
    let kt := keyType W s k
    let f := scan W s kt ⟨(tupleHead k).isSome, true, true, true⟩ keys
    let c := pick W s kt f
    if f.inTuples then .tuples (if kt = .tuple then .safe else c) else .plain c
  | _ => .plain .safe

/-- The comparison the merge sort calls, on slots whose key is `keyOf x`. Undefined comparisons are recorded in the
second part of the state. (CPythonSort.c 104-105.) -/
def ask (W : World σ) (c : Chosen) (keyOf : ε → Obj) (s : σ × Bool) (x y : ε) : Except Exc Bool × (σ × Bool) :=
  match c.run W s.1 (keyOf x) (keyOf y) with
  | (.ans b, t) => (.ok b, (t, s.2))
  | (.raised e, t) => (.error e, (t, s.2))
  | (.undef, t) => (.error .systemError, (t, true))

/-- What the merge sort is given: the comparison, the allocator, and whether there is a key function. Scaffolding of
the model, no code of /repo. -/
def host (W : World σ) (c : Chosen) (malloc : σ → Nat → Bool × σ) (keyed : Bool) (keyOf : ε → Obj) :
    Host (σ × Bool) ε where
  lt := ask W c keyOf
  malloc s n := ((malloc s.1 n).1, ((malloc s.1 n).2, s.2))
  keyed := keyed

/-- `CPython_sort` (1388-1632) from the check on, for slots with keys `keyOf x`. The sort moves slots around and
compares them; it is run on the slots tagged with the fact that they are among those it was given. The third result
is the state and whether some comparison was undefined. -/
def sortFrom (W : World σ) (malloc : σ → Nat → Bool × σ) (keyed : Bool) (keyOf : ε → Obj) (s : σ) (slots : List ε)
    (reverse : Bool) : Except Fault (Bool × List ε × (σ × Bool) × Option Exc) := do
  let h := host W (choose W s (slots.map keyOf)) malloc keyed (fun x : { x : ε // x ∈ slots } => keyOf x.1)
  let (ok, out, s, err) ← sortSlots h (s, false) slots.attach reverse
  pure (ok, out.map (·.1), s, err)

/-- The result of the method: what `CPython_sort` returns. A NULL result without an exception would be a
SystemError. -/
def finish (undef ok : Bool) (out : List ν) (err : Option Exc) : Out (List ν) Unit :=
  if undef then .ub .typeConfusion
  else match ok, err with
    | true, none => .ok out ()
    | true, some e => .pending out () e
    | false, some e => .exc out e
    | false, none => .exc out .systemError

/-- `ObjectArrayList.sort(reverse=r)` without a key function (objects/ObjectArrayList.cpp 417-432). -/
def sortList (W : World σ) (malloc : σ → Nat → Bool × σ) (s : σ) (l : List Obj) (reverse : Bool) :
    Except Fault (Out (List Obj) Unit × σ) := do
  let (ok, out, (s, undef), err) ← sortFrom W malloc false (fun x => x) s l reverse
  pure (finish undef ok out err, s)

/-- `ObjectArrayList.sort(key=f, reverse=r)` (objects/ObjectArrayList.cpp 417-432, utils/include/CPythonSort.c
1420-1446): the key array, the key function, the check, the sort. -/
def sortByKey (W : World σ) (malloc : σ → Nat → Bool × σ) (key : σ → ν → Except Exc Obj × σ) (s : σ) (l : List ν)
    (reverse : Bool) : Except Fault (Out (List ν) Unit × σ) :=
  let (got, s) := if l.length < 256 / 2 then (true, s) else malloc s l.length
  if !got then .ok (.exc l .memoryError, s)
  else
    match keysOf { key := key, lt := W.less, malloc := malloc } s l with
    | (.error e, s) => .ok (.exc l e, s)
    | (.ok ks, s) => do
      let (ok, out, (s, undef), err) ← sortFrom W malloc true (fun x : Obj × ν => x.1) s (ks.zip l) reverse
      pure (finish undef ok (out.map (·.2)) err, s)

end Verif.KeyCompare
