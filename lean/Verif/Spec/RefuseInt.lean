import Verif.Model.RefuseInt
import Verif.Spec.Refuse

/-! # An IntLinkedList and the nodes a machine grants: which calls ask, and for how many -/

namespace Verif.Spec

/-- The calls that survive a refusal unharmed: all but `extend`, `+=`, `*=` and assignment to a slice. -/
def IntSparing : Op → Bool
  | .extend _ | .iadd _ | .imul _ | .set (.slice _) (.inr _) => false
  | _ => true

/-- The items an operand can give to a list of `own` elements. -/
def itemsOf (own : Nat) : Src → Nat
  | .same v => v.length
  | .self => own
  | .list xs | .tuple xs | .seq xs | .seqNoLen xs | .iter xs _ => xs.length
  | .notIterable => 0

/-- The nodes a call on a list of `n` elements may ask for. -/
def nodesFor (n : Nat) : Op → Nat
  | .append _ | .insert _ _ => 1
  | .extend s | .iadd s | .set _ (.inr s) => itemsOf n s
  | .copy => n
  | .mul k => n * k.toNat
  | .rmul (.int k) | .rmul (.index k) => n * k.toNat
  | .imul k => n * (2 ^ (k.toNat - 1) - 1)
  | _ => 0

/-- From the `t`-th request on, the machine grants the next `k`. -/
def GrantsNext (m : Nat → Bool) (t k : Nat) : Prop := ∀ i, t ≤ i → i < t + k → m i = true

end Verif.Spec
