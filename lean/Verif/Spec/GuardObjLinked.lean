import Verif.Spec.GuardObj
import Verif.Model.ObjLinkedList

/-!
# Domain of agreement of ObjectLinkedList with a Python list

As `Spec/GuardObj.lean`, for ObjectLinkedList.
-/

namespace Verif.ObjLinked

open OObj

/-- An outcome seen through the contents. -/
def view : OLOut → OOut
  | .ok s r => .ok ⟨vec s, s.heap⟩ r
  | .exc s e => .exc ⟨vec s, s.heap⟩ e
  | .pending s r e => .pending ⟨vec s, s.heap⟩ r e
  | .ub u => .ub u

/-- Slice assignments that do what Python does: a value of the length of the slice with any step; with step 1 also a
shorter value, and a longer one unless the slice ends before it starts. -/
def sliceOk (l : List Obj) (xs : List Obj) : Option Int × Option Int × Int → Prop
  | (i, j, k) =>
    (Spec.positions l.length i j k).length = xs.length ∨
    k = 1 ∧ (xs.length < (Spec.positions l.length i j k).length ∨
      (i.map (Spec.clampUp l.length)).getD 0 ≤ (j.map (Spec.clampUp l.length)).getD l.length)

/-- A call on which the list behaves like a Python list and touches only live objects. -/
def OpOk (H : OHost) (l : List Obj) : OOp → Prop
  | .append _ | .insert _ _ | .mul _ | .rmul _ | .imul _ | .reverse | .clear | .copy | .toList | .len => True
  | .extend s => s ≠ .self
  | .iadd s => s ≠ .self ∧ ∀ v, s ≠ .same v
  | .pop a => popOk l a ∧ ∀ v, a = some (.int v) → Spec.position l.length v = none
  | .remove o | .count o => IdEq H l o
  | .index o i j => IdEq H l o ∧ ArrayList.BoundOk i ∧ ArrayList.BoundOk j
  | .contains o => IdEq H l o ∧ (H.isInt o = true ∨ o ∉ l)
  | .get (.idx a) => a ≠ .other
  | .get (.slice _) => (l.length : Int) ≤ ssizeMax
  | .setItem a _ => a ≠ .other
  | .setSlice s src =>
    (l.length : Int) ≤ ssizeMax ∧
    (src = .notIterable ∨
      ∃ xs, ObjArray.sized src = some xs ∧ ∀ f, Spec.fields s = .ok f → sliceOk l xs f)
  | .del (.idx a) => a ≠ .other
  | .del (.slice s) => ∀ f, Spec.fields s ≠ .ok f
  | .add s => s ≠ .self ∧ ∀ v, s ≠ .same v
  | .cmp op s => CmpOk H op l s
  | .resize _ => False

/-- The references a call loses: nobody holds them any more, but they stay counted. -/
def leaked (l : List Obj) : OOp → List Obj
  | .setItem a _ =>
    match Spec.word .indexError a with
    | .ok i => ((Spec.position l.length i).bind (l[·]?)).toList
    | .error _ => []
  | .imul n => if n ≤ 0 then l else []
  | _ => []

/-- A history all of whose calls are in the domain, judged on the specified contents. -/
def HistoryOk (H : OHost) : List Obj → List OOp → Prop
  | _, [] => True
  | l, op :: ops => OpOk H l op ∧ HistoryOk H (Spec.ostep H l op).1 ops

/-- A session in the domain: every call is, and the client gives up only references it has. -/
def SessionOk (H : OHost) (imm : Obj → Bool) : (Obj → Nat) → List Obj → List OEvent → Prop
  | _, _, [] => True
  | ext, l, .call op :: es =>
    OpOk H l op ∧ (∀ o ∈ Spec.mentioned op, imm o = true ∨ 0 < ext o) ∧
      SessionOk H imm (Spec.receive ext (Spec.ostep H l op).2) (Spec.ostep H l op).1 es
  | ext, l, .drop o :: es => (imm o = true ∨ 0 < ext o) ∧ SessionOk H imm (Spec.release ext o) l es

/-- References lost during a session. -/
def lost (H : OHost) : List Obj → List OEvent → List Obj
  | _, [] => []
  | l, .call op :: es => leaked l op ++ lost H (Spec.ostep H l op).1 es
  | l, .drop _ :: es => lost H l es

end Verif.ObjLinked
