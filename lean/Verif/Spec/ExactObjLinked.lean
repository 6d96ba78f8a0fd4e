import Verif.Spec.ExactObj
import Verif.Spec.GuardObjLinked

/-!
# The exact domain of agreement of ObjectLinkedList with a Python list

As `Spec/ExactObj.lean`, for ObjectLinkedList.
-/

namespace Verif.ObjLinked

open OObj

/-- Assignment of `xs` to the slice `i:j:k`: the length of the slice, with any step; with step 1 also a shorter value, and a
longer one if the slice does not end before it starts, or if what is between its end and its start reads the same with `xs`
pushed in before it. -/
def SliceExact (l xs : List Obj) : Option Int × Option Int × Int → Prop
  | (i, j, k) =>
    let lo := ((i.map (Spec.clampUp l.length)).getD 0).toNat
    let hi := ((j.map (Spec.clampUp l.length)).getD l.length).toNat
    (Spec.positions l.length i j k).length = xs.length ∨
    k = 1 ∧ (xs.length < (Spec.positions l.length i j k).length ∨ lo ≤ hi ∨
      (xs ++ l.drop hi).take (lo - hi) = (l.drop hi).take (lo - hi))

/-- Elements at distance `d` from each other are the same, among the first `n`. -/
def Period (l : List Obj) (n d : Nat) : Prop := ∀ p, p + d < n → l[p + d]? = l[p]?

/-- Assignment of a list to its slice `i:j:k` (the class reads the list while it changes it). Step 1: `l[:j] = l` needs the
elements from `j` on to be all the same; with another start, the list has to repeat itself from there on, and what is before
the start has to repeat itself from the end of the slice on if the slice ends before it starts. Another step: the slice is
the whole list, which reads the same backwards. -/
def SelfExact (l : List Obj) : Option Int × Option Int × Int → Prop
  | (i, j, k) =>
    let lo := ((i.map (Spec.clampUp l.length)).getD 0).toNat
    let hi := ((j.map (Spec.clampUp l.length)).getD l.length).toNat
    if k = 1 then
      if lo = 0 then ∀ x ∈ l.drop hi, l[hi]? = some x
      else Period l l.length lo ∧ (hi < lo → Period l lo (max hi 1))
    else (Spec.positions l.length i j k).length = l.length ∧ l.reverse = l

/-- The calls that do what a Python list does; `strict` as in `Model/IntLinkedList.lean`. -/
def Exact (H : OHost) (strict : Bool) (l : List Obj) : OOp → Prop
  | .append _ | .insert _ _ | .mul _ | .rmul _ | .imul _ | .reverse | .clear | .copy | .toList | .len => True
  | .extend s => s ≠ .self ∨ strict = false
  | .iadd s => s ≠ .self ∧ ∀ v, s ≠ .same v
  | .pop a => PopExact l a ∧ ∀ v, a = some (.int v) → Spec.position l.length v = none
  | .remove o => Finds H l o
  | .index o i j => IndexExact H l o i j
  | .count o => Spec.occurrences H o l = .ok (l.count o)
  | .contains o => (Spec.search H o l).map Option.isSome = .ok (H.isInt o && decide (o ∈ l))
  | .get (.idx a) => a ≠ .other
  | .get (.slice _) => True
  | .setItem a _ => a ≠ .other
  | .setSlice s src =>
    match Spec.fields s with
    | .error _ => True
    | .ok f =>
      match src with
      | .notIterable => True
      | .iter _ e => e = some .typeError
      | .seqNoLen _ => False
      | .self => SelfExact l f
      | .same v | .list v | .tuple v | .seq v => SliceExact l v f
  | .del (.idx a) => a ≠ .other
  | .del (.slice s) => ∀ f, Spec.fields s ≠ .ok f
  | .add s => s ≠ .self ∧ ∀ v, s ≠ .same v
  | .cmp op s => CmpExact H op l s
  | .resize _ => False

/-- The methods of the class. -/
def Covers : OOp → Prop
  | .resize _ => False
  | _ => True

/-- Every call of a history is exact, judged on the contents of a Python list. -/
def HistoryExact (H : OHost) (strict : Bool) : List Obj → List OOp → Prop
  | _, [] => True
  | l, op :: ops => Exact H strict l op ∧ HistoryExact H strict (Spec.ostep H l op).1 ops

end Verif.ObjLinked
