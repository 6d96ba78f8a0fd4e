import Verif.VocabRef

/-!
# Specification: names keep objects alive

A client has some number of names (references) for each object. Every event that takes an object needs a name for it;
`as_object` of the address of an object gives one more name for that object.
-/

namespace Verif.Spec

/-- The address denotes this object. -/
def target : Arg → Option Obj
  | .int v => if 0 < v ∧ v < 2 ^ 64 then some v.toNat else none
  | _ => none

/-- Change of the number of names. -/
def rebind (own : Obj → Nat) (o : Obj) (n : Nat) : Obj → Nat := fun x => if x = o then n else own x

/-- The client's names after a history; it only uses objects it has names for, and only passes addresses of such
objects to `as_object`. -/
inductive Names : (Obj → Nat) → List REvent → (Obj → Nat) → Prop
  | nil (own) : Names own [] own
  | getAddress {own own' o es} : 0 < own o → Names own es own' → Names own (.getAddress o :: es) own'
  | incref {own own' o es} : 0 < own o → Names own es own' → Names own (.incref o :: es) own'
  | decref {own own' o es} : 0 < own o → Names own es own' → Names own (.decref o :: es) own'
  | refcnt {own own' o es} : 0 < own o → Names own es own' → Names own (.refcnt o :: es) own'
  | bind {own own' o es} : 0 < own o → Names (rebind own o (own o + 1)) es own' → Names own (.bind o :: es) own'
  | drop {own own' o es} : 0 < own o → Names (rebind own o (own o - 1)) es own' → Names own (.drop o :: es) own'
  | asObject {own own' a o es} : target a = some o → 0 < own o → Names (rebind own o (own o + 1)) es own' →
      Names own (.asObject a :: es) own'

/-- References the client has added by hand (`incref` minus `decref`), minus the names `as_object` made. -/
def credit (o : Obj) : List REvent → Int
  | [] => 0
  | .incref x :: es => (if x = o then 1 else 0) + credit o es
  | .decref x :: es => -(if x = o then 1 else 0) + credit o es
  | .asObject a :: es => -(if target a = some o then 1 else 0) + credit o es
  | _ :: es => credit o es

/-- At every moment the client has added enough references by hand. -/
def Careful (imm : Obj → Bool) (es : List REvent) : Prop :=
  ∀ k o, imm o = false → 0 ≤ credit o (es.take k)

end Verif.Spec
