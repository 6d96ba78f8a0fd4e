import Verif.VocabTools

/-!
# The method tables of Unsafe, SIMD and ASM

How a call by name reaches a C function: the tables (Unsafe.cpp 356-382, SIMD.cpp 325-377, ASM.cpp 322-332), CPython's calling conventions, and what
each function asks about the number of its arguments before it looks at them. Simplified: attributes that every object has
(`__class__`, `__init__`, ...) are left out; what a function does with its arguments is modelled elsewhere (Model/Unsafe, UnsafeObj, Calls,
Stream, SimdCall, SimdSet, Cpu, Asm).
-/

namespace Verif.Tools

open Verif.With (Shape)

/-- The calling conventions in the tables. `tuple` carries the format of `PyArg_ParseTuple`; `fast` the number of arguments that
the function insists on, if it does, and how many it then looks at. -/
inductive Conv
  | noArgs
  | one
  | tuple (format : String)
  | fast (check : Option Nat) (reads : Nat)
  deriving DecidableEq, Repr

/-- An entry of a table; `windowsOnly`: the function raises NotImplementedError at once on other systems (the `#else` branches of ASM.cpp 111-113,
167-169, 222-224, 253-255, 294-296, 316-318). -/
structure Entry where
  conv : Conv
  windowsOnly : Bool := false
  deriving DecidableEq, Repr

/-- Unsafe.cpp 356-382, `Unsafe_methods`, with the checks in Unsafe.cpp 26-354. -/
def unsafeTable : List (String × Conv) := [
  ("__enter__", .noArgs), ("__exit__", .fast none 0), ("malloc", .one), ("calloc", .tuple "KK"),
  ("realloc", .tuple "KK"), ("free", .one), ("aligned_malloc", .tuple "KK"), ("aligned_free", .one),
  ("get", .tuple "KK"), ("set", .tuple "KO"), ("callVoid", .fast (some 1) 1), ("callInt", .fast (some 1) 1),
  ("callLongLong", .fast (some 1) 1), ("call", .fast (some 3) 3), ("get_address", .one), ("as_object", .one),
  ("memcpy", .fast (some 3) 3), ("memset", .fast (some 3) 3), ("incref", .one), ("decref", .one), ("refcnt", .one),
  ("fputs", .one), ("fflush", .noArgs), ("fgets", .one)]

/-- SIMD.cpp 30-33, `REGISTER_SIMD_FUNCTION`, with the checks in SIMD.cpp 35-91. -/
def register (name : String) : List (String × Conv) :=
  [("memcpy" ++ name, .fast (some 3) 3), ("memcpy" ++ name ++ "Aligned", .fast (some 3) 3), ("reverse" ++ name, .fast (some 2) 2)]

/-- SIMD.cpp 326-338, the entries written out, with the checks in SIMD.cpp 138-286. -/
def simdFixed : List (String × Conv) := [
  ("__enter__", .noArgs), ("__exit__", .fast none 0), ("isSSE41Supported", .noArgs), ("isAVX2Supported", .noArgs),
  ("isAVX512Supported", .noArgs), ("isSSSE3Supported", .noArgs), ("isArmNeonSupported", .noArgs),
  ("setAVX512Vector32", .fast (some 17) 17), ("setAVX512Vector16", .fast (some 33) 33), ("setAVX512Vector8", .fast (some 65) 65),
  ("setAVX2Vector32", .fast (some 9) 9), ("setAVX2Vector16", .fast (some 17) 17), ("setAVX2Vector8", .fast (some 33) 33)]

/-- SIMD.cpp 340-375, the names that are registered. -/
def simdNames : List String := [
  "Int", "UnsignedInt", "Long", "UnsignedLong", "LongLong", "UnsignedLongLong", "Short", "UnsignedShort",
  "Float", "Double", "LongDouble", "Char", "UnsignedChar", "WChar", "Char16", "Char32", "Bool",
  "Int8", "UInt8", "Int16", "UInt16", "Int32", "UInt32", "Int64", "UInt64", "VoidPtr", "IntPtr", "FloatPtr", "PyObjectPtr"]

/-- SIMD.cpp 325-377, `SIMD_methods`. -/
def simdTable : List (String × Conv) := simdFixed ++ simdNames.flatMap register

/-- ASM.cpp 322-332, `ASM_methods`, with the checks in ASM.cpp 35-320. -/
def asmTable : List (String × Entry) := [
  ("__enter__", ⟨.noArgs, false⟩), ("__exit__", ⟨.fast none 0, false⟩),
  ("run", ⟨.fast (some 1) 1, true⟩), ("runFast", ⟨.fast none 1, true⟩),
  ("makeFunction", ⟨.fast (some 1) 1, true⟩), ("makeFunctionFast", ⟨.fast none 1, true⟩),
  ("freeFunction", ⟨.fast (some 1) 1, true⟩), ("freeFunctionFast", ⟨.fast none 1, true⟩)]

/-- The table of a class (Unsafe.cpp 390, SIMD.cpp 385, ASM.cpp 339: `tp_methods`). -/
def table : Cls → List (String × Entry)
  | .unsafeCls => unsafeTable.map fun e => (e.1, ⟨e.2, false⟩)
  | .simd => simdTable.map fun e => (e.1, ⟨e.2, false⟩)
  | .asm => asmTable

/-- A call of an entry: CPython's check for the convention, then the function's own. (CPython's `method_vectorcall_NOARGS`, `_O`, `_VARARGS`, `_FASTCALL`;
the functions of Unsafe.cpp 26-354, SIMD.cpp 35-286, ASM.cpp 35-320 up to their first use of an argument.) -/
def Entry.call (windows : Bool) (e : Entry) (a : Shape) : Bound :=
  if a.kw ≠ [] then .raised .typeError
  else
    match e.conv with
    | .noArgs => if a.pos ≠ 0 then .raised .typeError else .reached
    | .one => if a.pos ≠ 1 then .raised .typeError else .reached
    | .tuple f => if a.pos ≠ f.length then .raised .typeError else .reached
    | .fast check reads =>
      if e.windowsOnly && !windows then .raised .notImplementedError
      else
        match check with
        | some n => if a.pos ≠ n then .raised .typeError else if a.pos < reads then .fault .outOfBounds else .reached
        | none => if a.pos < reads then .fault .outOfBounds else .reached

/-- `x.name(...)` for an object of the class. (CPython's attribute lookup in `tp_methods`: Unsafe.cpp 390, SIMD.cpp 385, ASM.cpp 339.) -/
def call (windows : Bool) (c : Cls) (name : String) (a : Shape) : Bound :=
  match List.lookup name (table c) with
  | none => .attributeError
  | some e => e.call windows a

end Verif.Tools
