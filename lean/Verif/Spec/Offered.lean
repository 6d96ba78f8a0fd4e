import Verif.Spec.PyList

/-! Specification of the values a call offers for storing (C02). -/

namespace Verif.Spec

/-- Integer value of an object, if it is an integer. -/
def intOf : Arg → Option Int
  | .int v | .index v => some v
  | .other => none

/-- Integers an operand yields. -/
def srcInts (l : List Int) : Src → List Int
  | .same v => v
  | .self => l
  | .list xs | .tuple xs | .seq xs | .seqNoLen xs | .iter xs _ => xs.filterMap intOf
  | .notIterable => []

/-- The integers a call offers to a list with contents `l` (`resize` offers zeros). -/
def offered (l : List Int) : Op → List Int
  | .append a | .insert _ a | .set (.idx _) (.inl a) => (intOf a).toList
  | .extend s | .iadd s | .set (.slice _) (.inr s) => srcInts l s
  | .resize _ => [0]
  | _ => []

/-- The argument objects of an operand. -/
def srcArgs : Src → List Arg
  | .list xs | .tuple xs | .seq xs | .seqNoLen xs | .iter xs _ => xs
  | _ => []

/-- The argument objects `append`, `extend`, `+=` and item assignment are asked to store. -/
def storedArgs : Op → List Arg
  | .append a | .set (.idx _) (.inl a) => [a]
  | .extend s | .iadd s => srcArgs s
  | _ => []

end Verif.Spec
