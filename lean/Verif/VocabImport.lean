import Verif.Vocab

/-!
# Vocabulary for importing the package
-/

namespace Verif

/-- The classes of the package. (Vocabulary: the names in ints.pyi, objects.pyi and unsafe/__init__.pyi.) -/
inductive Cls
  | intArrayList | intArrayListIter | bigIntArrayList | bigIntArrayListIter | intLinkedList | intLinkedListIter
  | objectArrayList | objectArrayListIter | objectLinkedList | objectLinkedListIter
  | unsafeCls | simd | simdLowAVX512 | asm
  deriving DecidableEq, Repr

/-- The modules a user imports. (Vocabulary: pyfastutil/ints.py, pyfastutil/objects.py, pyfastutil/unsafe/__init__.py.) -/
inductive Pkg
  | ints | objects | unsafePkg
  deriving DecidableEq, Repr

/-- How the machine behaves while one inner module is made: a garbage collection runs during `PyModule_Create`; it
succeeds; the two `PyModule_AddObject` succeed. (Environment, no code of /repo.) -/
structure Luck where
  gc : Bool
  create : Bool
  addClass : Bool
  addModule : Bool
  deriving DecidableEq, Repr

/-- How the machine behaves during one import: the two `new` of `initBitonicSort`, `PyModule_Create` of the extension
module, and the rest per inner module. (Environment, no code of /repo.) -/
structure ImportEnv where
  marks2 : Bool
  marks512 : Bool
  parent : Bool
  inner : Cls → Luck

/-- What an import statement does: the names it binds with the classes they are bound to, an exception (`importError`
is none of `Exc`), or the end of the process. (Vocabulary: what Python code sees; /repo has no such definition.) -/
inductive Imported
  | names (bound : List (Cls × Cls))
  | raises (e : Exc)
  | importError
  | aborted
  deriving DecidableEq, Repr

end Verif
