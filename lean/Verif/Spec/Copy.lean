/-!
# Specification of a copy between two separate blocks
-/

namespace Verif.Spec

/-- `dst'` is `dst` with elements `off .. off + count` replaced by the first `count` of `src`; nothing
else changes. -/
def Copied (src dst dst' : List α) (off count : Nat) : Prop :=
  dst'.length = dst.length ∧
  (∀ k, k < count → ∃ x, src[k]? = some x ∧ dst'[off + k]? = some x) ∧
  (∀ p, p < off ∨ off + count ≤ p → dst'[p]? = dst[p]?)

end Verif.Spec
