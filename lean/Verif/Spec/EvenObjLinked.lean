import Verif.Spec.EvenObj
import Verif.Spec.GuardObjLinked

/-!
# The calls of an ObjectLinkedList after which the counts are right

As `Spec/EvenObj.lean`, for ObjectLinkedList.
-/

namespace Verif.ObjLinked

/-- Where a slice starts. -/
def first (n : Nat) (i : Option Int) (k : Int) : Int :=
  if 0 < k then (i.map (Spec.clampUp n)).getD 0 else (i.map (Spec.clampDown n)).getD (n - 1)

/-- Assignment of `m` objects to the slice `i:j:k` of a list of `len`: if they are too few, the nodes that are too many are
removed in one piece, from where the next of them would go, so there have to be that many; then the objects go to the first
position of the slice and on in steps of `k`, which all have to be in the list there is now. -/
def SliceKeeps (len m : Nat) (i j : Option Int) (k : Int) : Prop :=
  let n := (Spec.positions len i j k).length
  (m < n → first len i k + m * k + (n - m : Nat) ≤ len) ∧
  ∀ t : Nat, t < m → 0 ≤ first len i k + t * k ∧ first len i k + t * k < (len : Int) - n + m

/-- The number of objects assigned. -/
def sizeOf (l : List Obj) : OSrc → Option Nat
  | .same v | .list v | .tuple v | .seq v => some v.length
  | .self => some l.length
  | .seqNoLen _ | .iter _ _ | .notIterable => none

/-- The calls after which the counts are right; `strict` as in `Model/IntLinkedList.lean`. -/
def Keeps (strict : Bool) (imm : Obj → Bool) (l : List Obj) : OOp → Prop
  | .append _ | .insert _ _ | .remove _ | .index _ _ _ | .count _ | .contains _ | .mul _ | .rmul _ | .add _
  | .reverse | .clear | .copy | .toList | .len | .cmp _ _ | .get (.slice _) | .resize _ => True
  | .extend s => s ≠ .self ∨ (strict = false ∧ ∀ o ∈ l, imm o = true)
  | .iadd s => s ≠ .self ∨ strict = false
  | .pop a => ∀ v, a = some (.int v) → Spec.position l.length v = none
  | .get (.idx a) | .del (.idx a) => a ≠ .other
  | .setItem a _ =>
    a ≠ .other ∧ ∀ i p old, Spec.word .indexError a = .ok i → Spec.position l.length i = some p → l[p]? = some old →
      imm old = true
  | .setSlice s src => ∀ i j k m, Spec.fields s = .ok (i, j, k) → sizeOf l src = some m → SliceKeeps l.length m i j k
  | .del (.slice s) => ∀ f, Spec.fields s ≠ .ok f
  | .imul n => 0 < n ∨ ∀ o ∈ l, imm o = true

/-- The list the assignment makes is one Python could have. -/
def Bounded (l : List Obj) : OOp → Prop
  | .setSlice _ src => ∀ m, sizeOf l src = some m → ((l.length + m : Nat) : Int) ≤ ssizeMax
  | _ => True

end Verif.ObjLinked
