import Verif.Spec.Methods
import Verif.Spec.GuardObj

/-!
# Calls by name on object lists: what Python does, and domains
-/

namespace Verif.Methods

/-- What Python's list does on a request, `none` for those that other models treat. `*` and `*=` take a number of the
machine's word. -/
def pyPerformObj (H : OHost) (l : List Obj) (r : Request OSrc) : Option Spec.ORes :=
  let counted (t : Thing OSrc) (f : Int → OOp) : Spec.ORes :=
    match t.arg with
    | .int n | .index n => if Spec.InRange 64 n then Spec.ostep H l (f n) else (l, .error .overflowError)
    | .other => (l, .error .typeError)
  match r with
  | .mul t => some (counted t .mul)
  | .imul t => some (counted t .imul)
  | r => r.oop.map (Spec.ostep H l)

/-- A call by name on Python's list. -/
def pyCallObj (H : OHost) (l : List Obj) (name : Name) (c : Args OSrc) : Option Spec.ORes :=
  match documented name c with
  | .error e => some (l, .error e)
  | .ok r => pyPerformObj H l r

/-- What the call asks for is in the domain `exact`. -/
def ExactCallObj (exact : OOp → Prop) (r : Request OSrc) : Prop :=
  match r with
  | .mul t => ∀ n, Number t n → Spec.InRange 64 n → exact (.mul n)
  | .imul t => ∀ n, Number t n → Spec.InRange 64 n → exact (.imul n)
  | r => ∀ op, r.oop = some op → exact op

/-- Outcomes, those of other models left out, agree exactly if `P`. -/
def OMatches (o : Option OOut) (res : Option Spec.ORes) (P : Prop) : Prop :=
  match o, res with
  | some o, some res => OAgrees o res ↔ P
  | none, none => True
  | _, _ => False

end Verif.Methods
