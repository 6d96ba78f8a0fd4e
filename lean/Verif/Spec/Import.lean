import Verif.VocabImport

/-!
# Specification: importing the package
-/

namespace Verif.Spec

/-- The classes each module documents: ints.pyi, objects.pyi, unsafe/__init__.pyi. -/
def offers : Pkg → List Cls
  | .ints => [.intArrayList, .bigIntArrayList, .intLinkedList, .intArrayListIter, .bigIntArrayListIter, .intLinkedListIter]
  | .objects => [.objectArrayList, .objectLinkedList, .objectArrayListIter, .objectLinkedListIter]
  | .unsafePkg => [.unsafeCls, .simd, .simdLowAVX512, .asm]

/-- Every documented name, and no other, is bound, each to its class. -/
def RightNames (g : Pkg) (bound : List (Cls × Cls)) : Prop :=
  ∀ c, bound.lookup c = if c ∈ offers g then some c else none

/-- Making one inner module goes well. -/
def Luck.Fine (lk : Luck) : Prop := lk.create = true ∧ lk.addClass = true ∧ lk.addModule = true

instance (lk : Luck) : Decidable (Luck.Fine lk) := by unfold Luck.Fine; infer_instance

/-- Nothing fails. -/
def ImportEnv.Fine (env : ImportEnv) : Prop :=
  env.marks2 = true ∧ env.marks512 = true ∧ env.parent = true ∧ ∀ c, Luck.Fine (env.inner c)

/-- Among the modules `cs`, made in this order, one fails and no collection that would forget the exception (`forgets`)
runs while those after it are made. -/
def Noticed (forgets : Bool) (env : ImportEnv) (cs : List Cls) : Prop :=
  ∃ pre c post, cs = pre ++ c :: post ∧ ¬ Luck.Fine (env.inner c) ∧
    ∀ d ∈ post, ¬ (forgets = true ∧ (env.inner d).gc = true)

end Verif.Spec
