import Verif.Spec.Guard

/-!
# Domain of agreement of IntLinkedList with a Python list

The calls on which the history theorem (C24) is claimed, as in `Verif/Spec/Guard.lean`. Nothing in this file
mentions the model's functions.
-/

namespace Verif.LinkedList

open ArrayList

/-- Operands all of whose items are elements. -/
def SrcElems : Src → Prop
  | .list xs | .tuple xs | .seq xs | .seqNoLen xs | .iter xs _ => ∀ a ∈ xs, Spec.IsElem 32 a = true
  | .same v => AllFits .i32 v
  | .notIterable => True
  | .self => False

instance (s : Src) : Decidable (SrcElems s) := by unfold SrcElems; split <;> infer_instance

/-- The values of an operand whose elements survive being read back from a 32-bit list. -/
def CmpInts (cfg : Cfg) (l : List Int) : Src → Option (List Int)
  | .same v => if AllFits .i32 v ∧ (cfg.py = .le311 ∨ ∀ x ∈ v, 0 ≤ x) then some v else none
  | .self => if cfg.py = .le311 ∨ ∀ x ∈ l, 0 ≤ x then some l else none
  | .list xs => SrcInts .i32 l (.list xs)
  | _ => none

/-- A call on which the linked list behaves like a Python list of 32-bit ints. -/
def OpOk (cfg : Cfg) (l : List Int) : Op → Prop
  | .append a => Spec.IsElem 32 a = true
  | .extend s => SrcElems s
  | .iadd s => SrcElems s ∧ (match s with | .same _ => False | _ => True)
  | .pop a => a = none ∧ ∀ v ∈ l, BoxOk cfg .i32 v
  | .set (.idx a) v => a ≠ .other ∧ (match v with | .inl x => Spec.IsElem 32 x = true | .inr _ => False)
  | .mul _ | .rmul _ => True
  | .imul n => n ≤ 1
  | .cmp op s =>
    (match CmpInts cfg l s with
      | some v => op = .eq ∨ op = .ne ∨ (v.length = l.length ∧ (op = .lt ∨ op = .gt ∨ v ≠ l))
      | none => False) ∨
    (match s with | .iter _ _ | .notIterable => op = .eq ∨ op = .ne | _ => False)
  | .resize _ => False
  | op => ArrayList.OpOk cfg .i32 l op

instance (cfg : Cfg) (l : List Int) (op : Op) : Decidable (OpOk cfg l op) := by
  unfold OpOk
  split <;> (try split) <;> (try split) <;> infer_instance

/-- A history all of whose calls are in the domain, judged on the specified contents. -/
def HistoryOk (cfg : Cfg) : List Int → List Op → Prop
  | _, [] => True
  | l, op :: ops => OpOk cfg l op ∧ HistoryOk cfg (Spec.step 32 l op).1 ops

instance HistoryOk.dec (cfg : Cfg) : (l : List Int) → (ops : List Op) → Decidable (HistoryOk cfg l ops)
  | _, [] => isTrue trivial
  | l, op :: ops =>
    have := HistoryOk.dec cfg (Spec.step 32 l op).1 ops
    by unfold HistoryOk; infer_instance

end Verif.LinkedList
