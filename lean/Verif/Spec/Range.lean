/-!
# Specification of Python's `range`
-/

namespace Verif.Spec

/-- `l` lists `start, start + step, …` as far as they lie before `stop` in the direction of the step. -/
def IsRange (start stop step : Int) (l : List Int) : Prop :=
  ∀ i : Nat, l[i]? =
    if (0 < step ∧ start + i * step < stop) ∨ (step < 0 ∧ start + i * step > stop)
    then some (start + i * step) else none

end Verif.Spec
