import Verif.VocabObj
import Verif.Spec.PyList

/-!
# Specification: a Python list of objects

What Python's own list does, with elements that are arbitrary objects: searching asks for identity or `==`,
comparison looks for the first pair that differs. `resize` fills with None.
-/

namespace Verif.Spec

/-- New contents and result or exception. -/
abbrev ORes := List Obj × Except Exc OVal

/-- Two objects count as equal: the same object, or `==` says so. -/
def same (H : OHost) (x y : Obj) : Except Exc Bool := if x = y then .ok true else H.rich .eq x y

/-- The first element equal to `o`; an exception of a comparison ends the search. -/
def search (H : OHost) (o : Obj) : List Obj → Except Exc (Option Nat)
  | [] => .ok none
  | x :: xs =>
    match same H x o with
    | .error e => .error e
    | .ok true => .ok (some 0)
    | .ok false =>
      match search H o xs with
      | .error e => .error e
      | .ok r => .ok (r.map (· + 1))

/-- How many elements are equal to `o`. -/
def occurrences (H : OHost) (o : Obj) : List Obj → Except Exc Nat
  | [] => .ok 0
  | x :: xs =>
    match same H x o with
    | .error e => .error e
    | .ok b =>
      match occurrences H o xs with
      | .error e => .error e
      | .ok n => .ok (n + if b then 1 else 0)

/-- The first pair of elements that differs. -/
def firstDiff (H : OHost) : List Obj → List Obj → Except Exc (Option (Obj × Obj))
  | x :: xs, y :: ys =>
    match same H x y with
    | .error e => .error e
    | .ok true => firstDiff H xs ys
    | .ok false => .ok (some (x, y))
  | _, _ => .ok none

/-- An operator on the lengths. -/
def opLen (op : CmpOp) (a b : Nat) : Bool :=
  match op with
  | .eq => decide (a = b)
  | .ne => decide (a ≠ b)
  | .lt => decide (a < b)
  | .le => decide (a ≤ b)
  | .gt => decide (b < a)
  | .ge => decide (b ≤ a)

/-- The six comparison operators on two lists. -/
def ocompare (H : OHost) (op : CmpOp) (a b : List Obj) : Except Exc Bool :=
  if (op = .eq ∨ op = .ne) ∧ a.length ≠ b.length then .ok (decide (op = .ne))
  else
    match firstDiff H a b with
    | .error e => .error e
    | .ok none => .ok (opLen op a.length b.length)
    | .ok (some (x, y)) =>
      match op with
      | .eq => .ok false
      | .ne => .ok true
      | op => H.rich op x y

/-- The operand as a list, if it is one. -/
def asList (l : List Obj) : OSrc → Option (List Obj)
  | .same v | .list v => some v
  | .self => some l
  | _ => none

/-- Comparison with an operand: what is no list is unequal and has no order. -/
def ocmp (H : OHost) (op : CmpOp) (l : List Obj) (s : OSrc) : Except Exc OVal :=
  match asList l s, op with
  | some r, op => (ocompare H op l r).map .bool
  | none, .eq => .ok (.bool false)
  | none, .ne => .ok (.bool true)
  | none, _ => .error .typeError

/-- The objects an operand yields, and the exception after them. -/
def oitems (l : List Obj) : OSrc → Except Exc (List Obj × Option Exc)
  | .same v => .ok (v, none)
  | .self => .ok (l, none)
  | .list xs | .tuple xs | .seq xs | .seqNoLen xs => .ok (xs, none)
  | .iter xs f => .ok (xs, f)
  | .notIterable => .error .typeError

/-- Appending every object of an iterable. -/
def oabsorb (l : List Obj) (s : OSrc) (v : OVal) : ORes :=
  match oitems l s with
  | .error e => (l, .error e)
  | .ok (xs, some e) => (l ++ xs, .error e)
  | .ok (xs, none) => (l ++ xs, .ok v)

/-- Copies of a list. -/
def ocopies (l : List Obj) (n : Int) : List Obj := (List.replicate n.toNat l).flatten

/-- One operation on a Python list of objects. -/
def ostep (H : OHost) (l : List Obj) : OOp → ORes
  | .append o => (l ++ [o], .ok .none)
  | .extend s => oabsorb l s .none
  | .iadd s => oabsorb l s .self
  | .insert i o =>
    match word .overflowError i with
    | .error e => (l, .error e)
    | .ok i =>
      let p := (clampUp l.length i).toNat
      (l.take p ++ o :: l.drop p, .ok .none)
  | .pop i =>
    match (match i with | none => Except.ok (-1) | some a => word .overflowError a) with
    | .error e => (l, .error e)
    | .ok i =>
      match position l.length i with
      | none => (l, .error .indexError)
      | some p => (l.take p ++ l.drop (p + 1), .ok (.obj (l.getD p 0)))
  | .remove o =>
    match search H o l with
    | .error e => (l, .error e)
    | .ok none => (l, .error .valueError)
    | .ok (some p) => (l.take p ++ l.drop (p + 1), .ok .none)
  | .index o i j =>
    match field i, field j with
    | .error e, _ => (l, .error e)
    | .ok _, .error e => (l, .error e)
    | .ok i, .ok j =>
      let lo := ((i.map (clampUp l.length)).getD 0).toNat
      let hi := ((j.map (clampUp l.length)).getD l.length).toNat
      match search H o ((l.take hi).drop lo) with
      | .error e => (l, .error e)
      | .ok none => (l, .error .valueError)
      | .ok (some p) => (l, .ok (.int (lo + p : Nat)))
  | .count o =>
    match occurrences H o l with
    | .error e => (l, .error e)
    | .ok n => (l, .ok (.int n))
  | .contains o =>
    match search H o l with
    | .error e => (l, .error e)
    | .ok r => (l, .ok (.bool r.isSome))
  | .get k =>
    match k with
    | .idx a =>
      match word .indexError a with
      | .error e => (l, .error e)
      | .ok i =>
        match position l.length i with
        | none => (l, .error .indexError)
        | some p => (l, .ok (.obj (l.getD p 0)))
    | .slice s =>
      match fields s with
      | .error e => (l, .error e)
      | .ok (i, j, k) => (l, .ok (.list (pick l (positions l.length i j k))))
  | .setItem a o =>
    match word .indexError a with
    | .error e => (l, .error e)
    | .ok i =>
      match position l.length i with
      | none => (l, .error .indexError)
      | some p => (l.take p ++ o :: l.drop (p + 1), .ok .none)
  | .setSlice s src =>
    match fields s with
    | .error e => (l, .error e)
    | .ok (i, j, k) =>
      match oitems l src with
      | .error e => (l, .error e)
      | .ok (_, some e) => (l, .error e)
      | .ok (xs, none) =>
        if k = 1 then (spliceAt l i j xs, .ok .none)
        else if xs.length = (positions l.length i j k).length then
          (overwrite l (positions l.length i j k) xs, .ok .none)
        else (l, .error .valueError)
  | .del k =>
    match k with
    | .idx a =>
      match word .indexError a with
      | .error e => (l, .error e)
      | .ok i =>
        match position l.length i with
        | none => (l, .error .indexError)
        | some p => (l.take p ++ l.drop (p + 1), .ok .none)
    | .slice s =>
      match fields s with
      | .error e => (l, .error e)
      | .ok (i, j, k) => (deleteAll l (positions l.length i j k), .ok .none)
  | .add s =>
    match s with
    | .same v => (l, .ok (.newList (l ++ v)))
    | .self => (l, .ok (.newList (l ++ l)))
    | .list xs => (l, .ok (.list (l ++ xs)))
    | _ => (l, .error .typeError)
  | .mul n => (l, .ok (.newList (ocopies l n)))
  | .rmul a =>
    match a with
    | .int v | .index v => if InRange 64 v then (l, .ok (.newList (ocopies l v))) else (l, .error .overflowError)
    | .other => (l, .error .typeError)
  | .imul n => (ocopies l n, .ok .self)
  | .cmp op s => (l, ocmp H op l s)
  | .reverse => (l.reverse, .ok .none)
  | .resize a =>
    match a with
    | .int v =>
      if 0 ≤ v ∧ InRange 64 v then (l.take v.toNat ++ List.replicate (v.toNat - l.length) H.none, .ok .none)
      else (l, .error .valueError)
    | _ => (l, .error .typeError)
  | .clear => ([], .ok .none)
  | .copy => (l, .ok (.newList l))
  | .toList => (l, .ok (.list l))
  | .len => (l, .ok (.int l.length))

/-- Contents and results over a whole history. -/
def orun (H : OHost) : List Obj → List OOp → List ORes
  | _, [] => []
  | l, op :: ops => ostep H l op :: orun H (ostep H l op).1 ops

/-! ## References

A reference count counts the holders of an object: the list holds one reference per element, the caller gets one
with every object in a result. -/

/-- The objects a result hands to the caller. -/
def carried : Except Exc OVal → List Obj
  | .ok (.obj o) => [o]
  | .ok (.list xs) | .ok (.newList xs) => xs
  | _ => []

/-- The objects a call mentions and the caller therefore keeps alive during it. -/
def mentioned : OOp → List Obj
  | .append o | .insert _ o | .remove o | .index o _ _ | .count o | .contains o | .setItem _ o => [o]
  | .extend s | .setSlice _ s | .iadd s | .add s | .cmp _ s =>
    match s with
    | .same v | .list v | .tuple v | .seq v | .seqNoLen v => v
    | _ => []
  | _ => []

end Verif.Spec
