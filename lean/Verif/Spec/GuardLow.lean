import Verif.Model.Base
import Verif.Spec.LowAVX512

/-!
# Integers the AVX-512 bindings convert exactly (domain of C51)
-/

namespace Verif.Spec.Low

/-- For `int` on CPython ≤ 3.11: magnitude below 2^30. For `char` and `short` on 3.12+: not negative, or the smallest
value. No condition on other types. -/
def Exact (py : PyVer) (t : CTy) (a : LArg) : Prop :=
  ∀ v, a = .obj (.int v) → (t = .int → py = .le311 → v.natAbs < 2 ^ 30) ∧
    (t = .char → py ≠ .le311 → 0 ≤ v ∨ v = -128) ∧ (t = .short → py ≠ .le311 → 0 ≤ v ∨ v = -32768)

/-- All arguments after `__result` are converted exactly. -/
def ExactAll (py : PyVer) (s : Stub) (args : List LArg) : Prop :=
  ∀ x ∈ s.params.zip (match s.ret with | none => args | some _ => args.drop 1), Exact py x.1 x.2

end Verif.Spec.Low
