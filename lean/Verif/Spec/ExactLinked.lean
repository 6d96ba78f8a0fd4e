import Verif.Spec.Exact

/-!
# The exact domain of agreement of IntLinkedList with a Python list

As `Verif/Spec/Exact.lean`, for the linked list of 32-bit ints. `strict` is the reading of the C++ standard under which a list
that is inserted into itself is undefined behaviour. Nothing in this file mentions the model's functions.
-/

namespace Verif.LinkedList

open ArrayList

/-- The arguments of the call can exist and the class has the method (there is no `resize`). -/
def Possible : Op → Prop
  | .resize _ => False
  | op => ArrayList.Possible .i32 op

instance (op : Op) : Decidable (Possible op) := by unfold Possible; split <;> infer_instance

/-- All items are elements. -/
def AllElems (xs : List Arg) : Prop := ∀ a ∈ xs, Spec.IsElem 32 a = true

instance (xs : List Arg) : Decidable (AllElems xs) := by unfold AllElems; infer_instance

/-- The value of an element of a list when it is read as an int object by another list: from 3.12 on a negative number
loses its sign. -/
def seen (cfg : Cfg) (v : Int) : Int := if ReadBack cfg .i32 v then v else -v

/-- Comparison for order with the ints `r` when `w` is what the list sees of them: lists of different lengths are in the order
of the lengths, equal ones in none, others in that of `w`. -/
def OrdAs (op : CmpOp) (l w r : List Int) : Prop :=
  if l.length ≠ r.length then Spec.compare op l r = decide (l.length < r.length)
  else if l = w then Spec.compare op l r = false
  else Spec.compare op l w = Spec.compare op l r

instance (op : CmpOp) (l w r : List Int) : Decidable (OrdAs op l w r) := by unfold OrdAs; infer_instance

/-- The ints that are looked at fit a machine word; none is when the lengths differ. -/
def LookedAt (l r : List Int) : Prop :=
  l.length = r.length → ∀ i, i < l.length → (∀ j, j < i → l.getD j 0 = lowBits .i32 (r.getD j 0)) → FitsS 64 (r.getD i 0)

instance (l r : List Int) : Decidable (LookedAt l r) := by unfold LookedAt; infer_instance

/-- The calls that do what a Python list does. -/
def Exact (cfg : Cfg) (strict : Bool) (l : List Int) : Op → Prop
  | .append a => Spec.IsElem 32 a = true
  | .extend s =>
    match s with
    | .self => strict = false
    | .list xs | .tuple xs | .seq xs | .seqNoLen xs | .iter xs _ => AllElems xs
    | .same _ | .notIterable => True
  | .iadd s =>
    match s with
    | .self | .same _ => False
    | .list xs | .tuple xs | .seq xs | .seqNoLen xs | .iter xs _ => AllElems xs
    | .notIterable => True
  | .pop a =>
    match a with
    | none => BoxAt cfg .i32 l (-1)
    | some .other => l ≠ []
    | some (.index v) => l = [] ∧ FitsS 64 v
    | some (.int v) => if FitsS 64 v then Spec.position l.length v = none else l ≠ []
  | .set (.idx a) v =>
    match a with
    | .other => False
    | .int i | .index i => FitsS 64 i → Spec.position l.length i ≠ none →
        match v with | .inl x => Spec.IsElem 32 x = true | .inr _ => False
  | .mul _ | .rmul _ => True
  | .imul n => n ≤ 1 ∨ (strict = false ∧ (n = 2 ∨ l = []))
  | .cmp op s =>
    match s, op with
    | .same v, .eq | .same v, .ne => l = v.map (seen cfg) ↔ l = v
    | .self, .eq | .self, .ne => ∀ x ∈ l, ReadBack cfg .i32 x
    | .list xs, .eq | .list xs, .ne =>
      xs.length ≠ l.length ∨ xs = l.map .int ∨ EqDecided .i32 l xs
    | .tuple xs, .eq | .tuple xs, .ne | .seq xs, .eq | .seq xs, .ne => xs.length ≠ l.length ∨ EqDecided .i32 l xs
    | .seqNoLen _, .eq | .seqNoLen _, .ne => False
    | .iter _ _, .eq | .iter _ _, .ne | .notIterable, .eq | .notIterable, .ne => True
    | .same v, op => OrdAs op l (v.map (seen cfg)) v
    | .self, op => OrdAs op l (l.map (seen cfg)) l
    | .list xs, op =>
      match Spec.allInts xs with
      | none => False
      | some r => LookedAt l r ∧ OrdAs op l (r.map (lowBits .i32)) r
    | .seqNoLen _, _ => True
    | _, _ => False
  | op => ArrayList.Exact cfg .i32 l op

instance (cfg : Cfg) (strict : Bool) (l : List Int) (op : Op) : Decidable (Exact cfg strict l op) := by
  unfold Exact
  split <;> (try split) <;> (try split) <;> (try split) <;> infer_instance

/-- A history all of whose calls do what a Python list does, judged on the specified contents. -/
def HistoryExact (cfg : Cfg) (strict : Bool) : List Int → List Op → Prop
  | _, [] => True
  | l, op :: ops => Exact cfg strict l op ∧ HistoryExact cfg strict (Spec.step 32 l op).1 ops

/-- The arguments of all calls can exist. -/
def AllPossible (ops : List Op) : Prop := ∀ op ∈ ops, Possible op

instance HistoryExact.dec (cfg : Cfg) (strict : Bool) :
    (l : List Int) → (ops : List Op) → Decidable (HistoryExact cfg strict l ops)
  | _, [] => isTrue trivial
  | l, op :: ops =>
    have := HistoryExact.dec cfg strict (Spec.step 32 l op).1 ops
    by unfold HistoryExact; infer_instance

instance (ops : List Op) : Decidable (AllPossible ops) := by unfold AllPossible; infer_instance

end Verif.LinkedList
