import Verif.Spec.GuardLinked

/-!
# Which calls a linked list iterator survives

Domains of the iterator theorems (C28) on the linked lists. Nothing in this file mentions the model's functions.
-/

namespace Verif.LinkedList

/-- Calls that leave the number of elements alone: all reading calls, `l[i] = v`, `reverse()`. -/
def SizeKept : Op → Prop
  | .index .. | .count _ | .contains _ | .get _ | .add _ | .mul _ | .rmul _ | .cmp .. | .copy | .toList | .len
  | .repr | .reverse | .resize _ | .set (.idx _) _ => True
  | _ => False

instance (op : Op) : Decidable (SizeKept op) := by unfold SizeKept; split <;> infer_instance

/-- Calls that leave the number of elements alone, and the growing and shrinking calls `append`, `insert`,
`remove`, `pop()` and an `extend` all of whose items are elements. -/
def Tracked : Op → Prop
  | .append _ | .insert _ _ | .remove _ | .pop none => True
  | .extend s => SrcElems s
  | op => SizeKept op

instance (op : Op) : Decidable (Tracked op) := by unfold Tracked; split <;> infer_instance

end Verif.LinkedList
