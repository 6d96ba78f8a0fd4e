import Verif.Spec.GuardObj

/-!
# The exact domain of agreement of ObjectArrayList with a Python list

`ObjArray.Exact H l op` says, in terms of the contents, the arguments, the answers of the elements and Python's own list only,
when the call `op` on a list with the contents `l` does what a Python list does. `Verif/Props/ExactObj.lean` proves that it
does so in these cases and in no others. Nothing in this file mentions the model's functions.
-/

namespace Verif.OObj

/-- Looking for `o` by equality ends where looking for the object itself ends; a ValueError of a comparison is what a search
in vain raises anyway. -/
def Finds (H : OHost) (l : List Obj) (o : Obj) : Prop :=
  Spec.search H o l = .ok (l.findIdx? (· == o)) ∨ (o ∉ l ∧ Spec.search H o l = .error .valueError)

/-- `index`: bounds beyond the machine word raise OverflowError, which only a comparison of a Python list can do. -/
def IndexExact (H : OHost) (l : List Obj) (o : Obj) (i j : Option Arg) : Prop :=
  match Spec.field i, Spec.field j with
  | .error _, _ => True
  | .ok _, .error _ => ArrayList.BoundOk i
  | .ok a, .ok b =>
    let lo := ((a.map (Spec.clampUp l.length)).getD 0).toNat
    let hi := ((b.map (Spec.clampUp l.length)).getD l.length).toNat
    if ArrayList.BoundOk i ∧ ArrayList.BoundOk j then Finds H ((l.take hi).drop lo) o
    else Spec.search H o ((l.take hi).drop lo) = .error .overflowError

/-- `pop`: an object with `__index__` is no index; the empty list is looked at first. -/
def PopExact (l : List Obj) : Option Arg → Prop
  | none => True
  | some .other => l ≠ []
  | some (.index v) => l = [] ∧ FitsS 64 v
  | some (.int v) => l ≠ [] ∨ FitsS 64 v

/-- Whether `!=` holds for some pair of elements, asked one pair after the other. -/
def anyNe (H : OHost) : List Obj → List Obj → Except Exc Bool
  | x :: xs, y :: ys =>
    if x = y then anyNe H xs ys
    else
      match H.rich .ne x y with
      | .error e => .error e
      | .ok true => .ok true
      | .ok false => anyNe H xs ys
  | _, _ => .ok false

/-- The answer of the first elements alone. -/
def byHead (H : OHost) (op : CmpOp) : List Obj → List Obj → Except Exc Bool
  | x :: _, y :: _ => H.rich op x y
  | _, _ => .ok false

/-- Comparison with a list: `==` is right; `!=` if the elements' `!=` gives Python's answer; the order if the lengths, or for
equal lengths the first elements, give it. -/
def CmpList (H : OHost) (op : CmpOp) (l r : List Obj) : Prop :=
  match op with
  | .eq => True
  | .ne => r.length ≠ l.length ∨ Spec.ocompare H .ne l r = anyNe H l r
  | op =>
    if r.length ≠ l.length then Spec.ocompare H op l r = .ok (decide (l.length < r.length))
    else Spec.ocompare H op l r = byHead H op l r

/-- Comparison with a sequence that is no list, which is unequal to every list and cannot be ordered. -/
def CmpOther (H : OHost) (op : CmpOp) (l r : List Obj) : Prop :=
  match op with
  | .eq => Spec.ocompare H .eq l r = .ok false
  | .ne => r.length ≠ l.length ∨ anyNe H l r = .ok true
  | op => r.length = l.length ∧ byHead H op l r = .error .typeError

/-- Comparisons with the answer of a Python list. -/
def CmpExact (H : OHost) (op : CmpOp) (l : List Obj) : OSrc → Prop
  | .same r | .list r => CmpList H op l r
  | .self => CmpList H op l l
  | .tuple r | .seq r => CmpOther H op l r
  | .seqNoLen _ => op ≠ .eq ∧ op ≠ .ne
  | .iter _ _ | .notIterable => op = .eq ∨ op = .ne

end Verif.OObj

namespace Verif.ObjArray

open OObj

/-- The calls that do what a Python list does. -/
def Exact (H : OHost) (l : List Obj) : OOp → Prop
  | .append _ | .insert _ _ | .mul _ | .rmul _ | .reverse | .clear | .copy | .toList | .len | .resize _ => True
  | .extend s => s ≠ .self
  | .iadd s => s ≠ .self ∧ ∀ v, s ≠ .same v
  | .pop a => PopExact l a
  | .remove o => Finds H l o
  | .index o i j => IndexExact H l o i j
  | .count o => Spec.occurrences H o l = .ok (l.count o)
  | .contains o => (Spec.search H o l).map Option.isSome = .ok (H.isInt o && decide (o ∈ l))
  | .get (.idx a) => a ≠ .other
  | .get (.slice _) => True
  | .setItem a _ => a ≠ .other
  | .setSlice s src =>
    match Spec.fields s with
    | .error _ => True
    | .ok (_, _, k) =>
      match src with
      | .notIterable => True
      | .iter _ f => f = some .typeError
      | .seqNoLen _ => False
      | .self => k = 1 ∧ l = []
      | .same _ | .list _ | .tuple _ | .seq _ => k = 1
  | .del (.idx a) => a ≠ .other
  | .del (.slice s) => ∀ f, Spec.fields s ≠ .ok f
  | .add s => s ≠ .self ∧ ∀ v, s ≠ .same v
  | .imul n => n ≤ 1 ∨ l = []
  | .cmp op s => CmpExact H op l s

/-- Calls that store no object without counting it: not a slice that grows from a list, and not `resize` with a mortal
None. -/
def Counted (H : OHost) (imm : Obj → Bool) (l : List Obj) : OOp → Prop
  | .setSlice s src => ¬ growsUncounted l s src
  | .resize (.int v) => imm H.none = true ∨ v ≤ l.length ∨ ¬ FitsS 64 v
  | _ => True

/-- Every call of a history is exact, judged on the contents of a Python list. -/
def HistoryExact (H : OHost) : List Obj → List OOp → Prop
  | _, [] => True
  | l, op :: ops => Exact H l op ∧ HistoryExact H (Spec.ostep H l op).1 ops

/-- Every call of a history counts what it stores. -/
def HistoryCounted (H : OHost) (imm : Obj → Bool) : List Obj → List OOp → Prop
  | _, [] => True
  | l, op :: ops => Counted H imm l op ∧ HistoryCounted H imm (Spec.ostep H l op).1 ops

end Verif.ObjArray
