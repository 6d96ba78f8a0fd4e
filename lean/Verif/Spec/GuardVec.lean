import Verif.Model.Base
import Verif.Spec.Vec

/-!
# Values the vector setters convert exactly (domain of C44)
-/

namespace Verif.Spec

/-- Representable, and: for 32-bit lanes on CPython ≤ 3.11, magnitude below 2^30; for 16- and 8-bit lanes on 3.12+, not
negative (or the smallest value). -/
def LaneExact (py : PyVer) (f : VecFn) (v : Int) : Prop :=
  LaneFits f v ∧ (py = .le311 → f.lane = 4 → v.natAbs < 2 ^ 30) ∧
    (py ≠ .le311 → f.lane ≠ 4 → 0 ≤ v ∨ 2 * v = -(256 ^ f.lane : Int))

end Verif.Spec
