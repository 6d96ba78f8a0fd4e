/-!
# Specification of in-place element reversal

Byte `b` of element `e` afterwards is byte `b` of element `count - 1 - e` before; bytes outside the
`count` elements are unchanged.
-/

namespace Verif.Spec

/-- `m'` is `m` with its first `count` elements of `sz` bytes in opposite order. -/
def Reversed (sz count : Nat) (m m' : Nat → α) : Prop :=
  (∀ e b, e < count → b < sz → m' (e * sz + b) = m ((count - 1 - e) * sz + b)) ∧
  (∀ p, count * sz ≤ p → m' p = m p)

end Verif.Spec
