import Verif.VocabHint

/-!
# What `list.extend` does about the length hint

Python's list asks first; if asking fails, it raises that exception, takes nothing from the iterator and keeps its
elements (as whatever code ran left them).
-/

namespace Verif.Spec

/-- Asking for the length hint raises `x`, leaving the list `l'`. -/
def HintFails (o : Hint.Iterable σ β) (l l' : σ) (x : Hint.Raised) : Prop := Hint.lengthHint o l = (l', .error x)

/-- Asking for the length hint gives an answer, leaving the list `l'`. -/
def HintWorks (o : Hint.Iterable σ β) (l l' : σ) : Prop := ∃ n, Hint.lengthHint o l = (l', .ok n)

/-- What Python does after a failure. -/
def hintFailed (o : Hint.Iterable σ β) (l' : σ) (x : Hint.Raised) : Hint.Went σ β ρ := ⟨l', o.items, .error x⟩

end Verif.Spec
