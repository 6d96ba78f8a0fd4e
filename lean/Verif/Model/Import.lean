import Verif.VocabImport
import Verif.Model.Base

/-!
# Importing the package

Model of PyFastUtil.cpp 34-59, of the `PyInit_` functions of the inner modules, of `simd::initBitonicSort`
(utils/simd/BitonicSort.cpp 44-53) and of ints.py, objects.py and unsafe/__init__.py. Around them the import machinery
of CPython: a `PyInit_` function that returns a module while an exception is set makes the import raise SystemError; a
module whose import succeeded is kept in `sys.modules` and not made again; a Python module whose code raised is not
kept. A garbage collection that finds an exception set writes it to stderr and clears it (gcmodule.c,
`gc_collect_main`); from 3.12 on collections do not run inside C code. Simplified: what the import of the pure Python
module of unsafe/__init__.py (`__SIMDLowAVX512Defines`) does is left out; the memory of the extension module itself,
when its import raises, is left out.
-/

namespace Verif.Import

/-- The process: `avx2Marks` and `avx512Marks` are set (BitonicSort.cpp 40-41), the inner modules of the extension module in
`sys.modules` (name and the class each offers), the inner modules that nobody owns any more. -/
structure Proc where
  marks2 : Bool
  marks512 : Bool
  sys : Option (List (Cls × Cls))
  leaked : List Cls
  deriving DecidableEq, Repr

/-- A process that has not imported the package. (Scaffolding of the model, no code of /repo.) -/
def Proc.fresh : Proc := ⟨false, false, none, []⟩

/-- The exception set after `PyModule_Create`, before looking at its result: a collection may have cleared it.
(CPython; IntArrayList.cpp 1253 and the same in the other modules.) -/
def afterGc (py : PyVer) (lk : Luck) (err : Option Exc) : Option Exc :=
  if py = .le311 ∧ lk.gc = true then none else err

/-- `PyInit_X` of an inner module (IntArrayList.cpp 1250-1265; the same text in BigIntArrayList.cpp 1252-1267,
IntLinkedList.cpp 1159-1174, ObjectArrayList.cpp 1210-1225, ObjectLinkedList.cpp 1120-1135, the five iterators,
Unsafe.cpp 408-423, SIMD.cpp 403-418, SIMDLowAVX512.cpp 35664-35679, ASM.cpp 357-372): the class the new module offers, or
`nullptr`, and the exception that is set afterwards. -/
def inner (py : PyVer) (c : Cls) (lk : Luck) (err : Option Exc) : Option Cls × Option Exc :=
  let err := afterGc py lk err
  if !lk.create then (none, some .memoryError)
  else if !lk.addClass then (none, some .memoryError)
  else (some c, err)

/-- `PyModule_AddObject(parent, "X", PyInit_X())` (PyFastUtil.cpp 41-57), the result ignored: with `nullptr` it leaves the exception that is
set (SystemError if none is); if it fails, the inner module stays without an owner. -/
def addInner (py : PyVer) (lk : Luck) (c : Cls) (st : List (Cls × Cls) × List Cls × Option Exc) :
    List (Cls × Cls) × List Cls × Option Exc :=
  let (names, leaked, err) := st
  match inner py c lk err with
  | (none, err) => (names, leaked, some (err.getD .systemError))
  | (some k, err) =>
    if lk.addModule then (names ++ [(c, k)], leaked, err) else (names, leaked ++ [c], some .memoryError)

/-- The inner modules in the order of PyFastUtil.cpp 41-57. -/
def table : List Cls :=
  [.intArrayList, .intArrayListIter, .bigIntArrayList, .bigIntArrayListIter, .intLinkedList, .intLinkedListIter,
    .objectArrayList, .objectArrayListIter, .objectLinkedList, .objectLinkedListIter,
    .unsafeCls, .simd, .simdLowAVX512, .asm]

/-- All of PyFastUtil.cpp 41-57. -/
def addAll (py : PyVer) (env : ImportEnv) : List Cls → List (Cls × Cls) × List Cls × Option Exc → List (Cls × Cls) × List Cls × Option Exc
  | [], st => st
  | c :: cs, st => addAll py env cs (addInner py (env.inner c) c st)

/-- `simd::initBitonicSort` (BitonicSort.cpp 44-53): `none` when a `new` throws, which leaves the C function `PyInit` and ends
the process. -/
def initMarks (cfg : Cfg) (env : ImportEnv) (p : Proc) : Option Proc :=
  if cfg.avx2 && !p.marks2 && !env.marks2 then none
  else
    let p := { p with marks2 := p.marks2 || cfg.avx2 }
    if cfg.avx512 && !p.marks512 && !env.marks512 then none
    else some { p with marks512 := p.marks512 || cfg.avx512 }

/-- `import pyfastutil.__pyfastutil`: `PyInit___pyfastutil` (PyFastUtil.cpp 34-59) unless the module is in `sys.modules`. `none` =
the end of the process. -/
def importExt (cfg : Cfg) (env : ImportEnv) (p : Proc) : Option (Proc × Except Exc (List (Cls × Cls))) :=
  match p.sys with
  | some names => some (p, .ok names)
  | none =>
    match initMarks cfg env p with
    | none => none
    | some p =>
      if !env.parent then some (p, .error .memoryError)
      else
        match addAll cfg.py env table ([], [], none) with
        | (_, leaked, some _) => some ({ p with leaked := p.leaked ++ leaked }, .error .systemError)
        | (names, leaked, none) => some ({ p with sys := some names, leaked := p.leaked ++ leaked }, .ok names)

/-- The names a Python module takes from the extension module: ints.py 2-12 and 16-21, objects.py 2-8 and 10-13,
unsafe/__init__.py 4-10 and 17-20, in that order. -/
def wanted : Pkg → List Cls
  | .ints => [.intArrayList, .intArrayListIter, .bigIntArrayList, .bigIntArrayListIter, .intLinkedList, .intLinkedListIter]
  | .objects => [.objectArrayList, .objectArrayListIter, .objectLinkedList, .objectLinkedListIter]
  | .unsafePkg => [.unsafeCls, .asm, .simd, .simdLowAVX512]

/-- `from .__pyfastutil import X as __X` for all names, then `X = __X.X` (ints.py 2-21, objects.py 2-13,
unsafe/__init__.py 4-20). -/
def take (names : List (Cls × Cls)) : List Cls → Option (List (Cls × Cls))
  | [] => some []
  | c :: cs =>
    match names.lookup c, take names cs with
    | some k, some r => some ((c, k) :: r)
    | _, _ => none

/-- `import pyfastutil.ints` (or objects, or unsafe) in a process where that module is not in `sys.modules`. (ints.py 1-21, objects.py 1-13,
unsafe/__init__.py 1-20.) -/
def importPkg (cfg : Cfg) (env : ImportEnv) (p : Proc) (g : Pkg) : Option Proc × Imported :=
  match importExt cfg env p with
  | none => (none, .aborted)
  | some (p, .error e) => (some p, .raises e)
  | some (p, .ok names) =>
    match take names (wanted g) with
    | none => (some p, .importError)
    | some b => (some p, .names b)

/-- A sequence of imports, each tried anew. (Scaffolding of the model, no code of /repo.) -/
def session (cfg : Cfg) (p : Proc) : List (Pkg × ImportEnv) → List Imported
  | [] => []
  | (g, env) :: r =>
    match importPkg cfg env p g with
    | (none, a) => [a]
    | (some p, a) => a :: session cfg p r

/-- The process after a sequence of imports, if it is still there. (Scaffolding of the model, no code of /repo.) -/
def after (cfg : Cfg) (p : Proc) : List (Pkg × ImportEnv) → Option Proc
  | [] => some p
  | (g, env) :: r =>
    match importPkg cfg env p g with
    | (none, _) => none
    | (some p, _) => after cfg p r

end Verif.Import
