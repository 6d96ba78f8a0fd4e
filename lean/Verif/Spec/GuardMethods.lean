import Verif.Spec.Methods
import Verif.Spec.Agree

/-!
# Calls by name and their domains
-/

namespace Verif.Methods

/-- What the call asks for is in the domain `exact`. -/
def ExactCall (exact : Op → Prop) (r : Request Src) : Prop :=
  match r with
  | .mul t => ∀ n, Number t n → Spec.InRange 64 n → exact (.mul n)
  | .imul t => ∀ n, Number t n → Spec.InRange 64 n → exact (.imul n)
  | r => ∀ op, r.op = some op → exact op

/-- Outcomes, those of other models left out, agree exactly if `P`. -/
def Matches (o : Option LOut) (res : Option Spec.Res) (P : Prop) : Prop :=
  match o, res with
  | some o, some res => Agrees o res ↔ P
  | none, none => True
  | _, _ => False

end Verif.Methods
