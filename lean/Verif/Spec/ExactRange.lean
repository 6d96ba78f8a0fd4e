import Verif.Model.Base

/-!
# The arguments for which `from_range` builds the range

Only integers and the width of a machine word are mentioned, none of the functions of the model.
-/

namespace Verif.Spec

/-- Position `i` of `range(start, stop, step)` exists. -/
def Position (start stop step : Int) (i : Nat) : Prop :=
  (0 < step ∧ start + i * step < stop) ∨ (step < 0 ∧ start + i * step > stop)

/-- The arguments, none of them the largest word, for which counting and filling stay exact: the count
`stop - start + step` does not leave the word; a descending distance is a multiple of the step; every
element fits the elements of the list, and the value after it fits the word. -/
def RangeCore (bits : Nat) (start stop step : Int) : Prop :=
  (0 < step → start < stop → FitsS 64 (stop - start + step)) ∧
  (step < 0 → stop < start → FitsS 64 (start - stop) ∧ FitsS 64 (-step) ∧ (-step) ∣ (start - stop)) ∧
  ∀ i : Nat, Position start stop step i →
    FitsS bits (start + i * step) ∧ FitsS 64 (start + i * step + step)

/-- The exact domain of `from_range(start, stop, step)`. The largest word as `stop` only works for an empty
range that `range(start)` shares, and as `step` only where no second element exists. -/
def RangeExact (bits : Nat) (start stop step : Int) : Prop :=
  if stop = ssizeMax then step < 0 ∧ start ≤ 0
  else if step = ssizeMax then stop ≤ start ∨ (stop = start + 1 ∧ FitsS bits start)
  else RangeCore bits start stop step

end Verif.Spec
