import Verif.Spec.PyList
import Verif.Model.IntArrayList

/-!
# When a call of the model agrees with the Python-list specification

`RetIs` compares results (an int result must be the very object CPython builds for the value, i.e. the
normalised representation), `Agrees` whole outcomes: undefined behaviour and a pending exception
never agree with anything.
-/

namespace Verif

/-- The model's result object is the specified value. -/
def RetIs : Ret → Spec.Val → Prop
  | .none, .none => True
  | .self, .self => True
  | .int p, .int v => p = canon v
  | .bool a, .bool b => a = b
  | .pylist ps, .ints vs => ps = vs.map canon
  | .pyconcat ps xs, .concat vs ys => ps = vs.map canon ∧ xs = ys
  | .newList a, .list b => a = b
  | .str a, .str b => a = b
  | _, _ => False

/-- The model's outcome is the specified one. -/
def Agrees : LOut → Spec.Res → Prop
  | .ok l r, (l', .ok v) => l = l' ∧ RetIs r v
  | .exc l e, (l', .error e') => l = l' ∧ e = e'
  | _, _ => False

/-- Outcomes of a history agree call by call, and no call is missing. -/
def AgreesAll : List LOut → List Spec.Res → Prop
  | [], [] => True
  | o :: os, r :: rs => Agrees o r ∧ AgreesAll os rs
  | _, _ => False

/-- Every element is a value of the element type. -/
def AllFits (K : Kind) (l : List Int) : Prop := ∀ v ∈ l, FitsS K.bits v

instance (K : Kind) (l : List Int) : Decidable (AllFits K l) := by unfold AllFits; infer_instance

end Verif
