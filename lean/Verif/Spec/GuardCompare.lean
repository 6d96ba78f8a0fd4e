import Verif.VocabCompare

/-!
# What the comparison theorems assume of the interpreter
-/

namespace Verif.Spec.ByKey

open Verif.Key

variable {σ : Type}

/-- No object changes its class while the sort runs. -/
def Steady (W : World σ) (s0 : σ) : Prop := ∀ s i, W.cls s i = W.cls s0 i

/-- A method that answers `NotImplemented` does nothing else. -/
def Quiet (W : World σ) : Prop := ∀ s fn a v w s', W.call s fn a v w = (.ok none, s') → s' = s

end Verif.Spec.ByKey
