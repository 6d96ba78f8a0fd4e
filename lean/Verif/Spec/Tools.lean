import Verif.VocabTools

/-!
# The documented methods of Unsafe, SIMD and ASM

From the stubs Unsafe.pyi, SIMD.pyi and ASM.pyi. Parameters whose names begin with two underscores are positional-only (PEP 484).
-/

namespace Verif.Tools.Spec

open Verif.Tools
open Verif.With (Shape)

/-- Parameters besides `self`. -/
inductive Params
  | positional (n : Nat)
  | named (names : List String)
  deriving DecidableEq, Repr

/-- The methods of Unsafe.pyi, without `__init__`. -/
def unsafeStub : List (String × Params) := [
  ("__enter__", .positional 0), ("__exit__", .named ["exc_type", "exc_val", "exc_tb"]), ("malloc", .positional 1),
  ("calloc", .positional 2), ("realloc", .positional 2), ("free", .positional 1), ("aligned_malloc", .positional 2),
  ("aligned_free", .positional 1), ("get", .positional 2), ("set", .positional 2), ("callVoid", .positional 1),
  ("callInt", .positional 1), ("callLongLong", .positional 1), ("call", .positional 3),
  ("get_address", .positional 1), ("as_object", .positional 1), ("memcpy", .positional 3), ("memset", .positional 3),
  ("incref", .positional 1), ("decref", .positional 1), ("refcnt", .positional 1), ("fputs", .positional 1),
  ("fflush", .positional 0), ("fgets", .positional 1)]

/-- The methods of SIMD.pyi, without `__init__`. -/
def simdStub : List (String × Params) := [
  ("__enter__", .positional 0), ("__exit__", .named ["exc_type", "exc_val", "exc_tb"]),
  ("isSSE41Supported", .positional 0), ("isAVX2Supported", .positional 0), ("isAVX512Supported", .positional 0),
  ("isSSSE3Supported", .positional 0), ("isArmNeonSupported", .positional 0), ("setAVX512Vector32", .positional 17),
  ("setAVX512Vector16", .positional 33), ("setAVX512Vector8", .positional 65), ("setAVX2Vector32", .positional 9),
  ("setAVX2Vector16", .positional 17), ("setAVX2Vector8", .positional 33), ("memcpyInt", .positional 3),
  ("memcpyIntAligned", .positional 3), ("reverseInt", .positional 2), ("memcpyUnsignedInt", .positional 3),
  ("memcpyUnsignedIntAligned", .positional 3), ("reverseUnsignedInt", .positional 2), ("memcpyLong", .positional 3),
  ("memcpyLongAligned", .positional 3), ("reverseLong", .positional 2), ("memcpyUnsignedLong", .positional 3),
  ("memcpyUnsignedLongAligned", .positional 3), ("reverseUnsignedLong", .positional 2),
  ("memcpyLongLong", .positional 3), ("memcpyLongLongAligned", .positional 3), ("reverseLongLong", .positional 2),
  ("memcpyUnsignedLongLong", .positional 3), ("memcpyUnsignedLongLongAligned", .positional 3),
  ("reverseUnsignedLongLong", .positional 2), ("memcpyShort", .positional 3), ("memcpyShortAligned", .positional 3),
  ("reverseShort", .positional 2), ("memcpyUnsignedShort", .positional 3),
  ("memcpyUnsignedShortAligned", .positional 3), ("reverseUnsignedShort", .positional 2),
  ("memcpyFloat", .positional 3), ("memcpyFloatAligned", .positional 3), ("reverseFloat", .positional 2),
  ("memcpyDouble", .positional 3), ("memcpyDoubleAligned", .positional 3), ("reverseDouble", .positional 2),
  ("memcpyLongDouble", .positional 3), ("memcpyLongDoubleAligned", .positional 3),
  ("reverseLongDouble", .positional 2), ("memcpyChar", .positional 3), ("memcpyCharAligned", .positional 3),
  ("reverseChar", .positional 2), ("memcpyUnsignedChar", .positional 3),
  ("memcpyUnsignedCharAligned", .positional 3), ("reverseUnsignedChar", .positional 2),
  ("memcpyWChar", .positional 3), ("memcpyWCharAligned", .positional 3), ("reverseWChar", .positional 2),
  ("memcpyChar16", .positional 3), ("memcpyChar16Aligned", .positional 3), ("reverseChar16", .positional 2),
  ("memcpyChar32", .positional 3), ("memcpyChar32Aligned", .positional 3), ("reverseChar32", .positional 2),
  ("memcpyBool", .positional 3), ("memcpyBoolAligned", .positional 3), ("reverseBool", .positional 2),
  ("memcpyInt8", .positional 3), ("memcpyInt8Aligned", .positional 3), ("reverseInt8", .positional 2),
  ("memcpyUInt8", .positional 3), ("memcpyUInt8Aligned", .positional 3), ("reverseUInt8", .positional 2),
  ("memcpyInt16", .positional 3), ("memcpyInt16Aligned", .positional 3), ("reverseInt16", .positional 2),
  ("memcpyUInt16", .positional 3), ("memcpyUInt16Aligned", .positional 3), ("reverseUInt16", .positional 2),
  ("memcpyInt32", .positional 3), ("memcpyInt32Aligned", .positional 3), ("reverseInt32", .positional 2),
  ("memcpyUInt32", .positional 3), ("memcpyUInt32Aligned", .positional 3), ("reverseUInt32", .positional 2),
  ("memcpyInt64", .positional 3), ("memcpyInt64Aligned", .positional 3), ("reverseInt64", .positional 2),
  ("memcpyUInt64", .positional 3), ("memcpyUInt64Aligned", .positional 3), ("reverseUInt64", .positional 2),
  ("memcpyVoidPtr", .positional 3), ("memcpyVoidPtrAligned", .positional 3), ("reverseVoidPtr", .positional 2),
  ("memcpyIntPtr", .positional 3), ("memcpyIntPtrAligned", .positional 3), ("reverseIntPtr", .positional 2),
  ("memcpyFloatPtr", .positional 3), ("memcpyFloatPtrAligned", .positional 3), ("reverseFloatPtr", .positional 2),
  ("memcpyPyObjectPtr", .positional 3), ("memcpyPyObjectPtrAligned", .positional 3),
  ("reversePyObjectPtr", .positional 2)]

/-- The methods of ASM.pyi, without `__init__`. -/
def asmStub : List (String × Params) := [
  ("__enter__", .positional 0), ("__exit__", .named ["exc_type", "exc_val", "exc_tb"]), ("run", .positional 1),
  ("runFast", .positional 1), ("makeFunction", .positional 1), ("makeFunctionFast", .positional 1),
  ("freeFunction", .positional 1), ("freeFunctionFast", .positional 1)]

/-- The methods of a class. -/
def stub : Cls → List (String × Params)
  | .unsafeCls => unsafeStub
  | .simd => simdStub
  | .asm => asmStub

/-- The method is documented. -/
def Documented (c : Cls) (name : String) : Prop := ∃ p, (name, p) ∈ stub c

/-- The arguments fit the parameters: all by position; named ones also by name, each once, after those by position. -/
def Fits (a : Shape) : Params → Prop
  | .positional n => a.pos = n ∧ a.kw = []
  | .named ps => a.pos ≤ ps.length ∧ a.kw.Perm (ps.drop a.pos)

instance (a : Shape) (p : Params) : Decidable (Fits a p) := by
  cases p <;> unfold Fits <;> infer_instance

/-- What a call should come to. -/
def expected (c : Cls) (name : String) (a : Shape) : Bound :=
  match List.lookup name (stub c) with
  | none => .attributeError
  | some p => if Fits a p then .reached else .raised .typeError

/-- The functions of ASM. -/
def asmNames : List String :=
  ["run", "runFast", "makeFunction", "makeFunctionFast", "freeFunction", "freeFunctionFast"]

/-- Those that look at their first argument without asking whether there is one. -/
def asmFast : List String := ["runFast", "makeFunctionFast", "freeFunctionFast"]

/-- Where the code deviates: the functions of ASM, given arguments by position, on other systems than Windows; on Windows three of
them, given none or several; `__exit__` of all classes, given another number than three by position, or the right ones by name. -/
def Deviates (windows : Bool) (c : Cls) (name : String) (a : Shape) : Prop :=
  (c = .asm ∧ windows = false ∧ name ∈ asmNames ∧ a.kw = []) ∨
  (c = .asm ∧ windows = true ∧ name ∈ asmFast ∧ a.kw = [] ∧ a.pos ≠ 1) ∨
  (name = "__exit__" ∧ a.kw = [] ∧ a.pos ≠ 3) ∨
  (name = "__exit__" ∧ a.kw ≠ [] ∧ Fits a (.named ["exc_type", "exc_val", "exc_tb"]))

end Verif.Tools.Spec
