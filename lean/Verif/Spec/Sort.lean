/-!
# What sorting means

Independent of every model: strict weak orders, sortedness, and stability as "for every element, the
elements equivalent to it occur in the same order as before".
-/

namespace Verif.Spec

/-- `lt` is a strict weak order (what Python expects of `<`). -/
structure StrictWeak (lt : α → α → Bool) : Prop where
  irrefl : ∀ x, lt x x = false
  trans : ∀ x y z, lt x y = true → lt y z = true → lt x z = true
  negTrans : ∀ x y z, lt x y = false → lt y z = false → lt x z = false

/-- No element is smaller than an element before it. -/
def SortedBy (lt : α → α → Bool) (l : List α) : Prop := l.Pairwise (fun x y => lt y x = false)

/-- Neither is smaller. -/
def equivBy (lt : α → α → Bool) (x y : α) : Bool := !lt x y && !lt y x

/-- Equivalent elements occur in the same order in both lists. -/
def SameOrder (lt : α → α → Bool) (l l' : List α) : Prop :=
  ∀ x, l.filter (equivBy lt x) = l'.filter (equivBy lt x)

/-- `out` is `l` sorted stably. -/
def StableSort (lt : α → α → Bool) (l out : List α) : Prop :=
  out.Perm l ∧ SortedBy lt out ∧ SameOrder lt out l

end Verif.Spec
