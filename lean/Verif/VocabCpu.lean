/-!
# Vocabulary for CPU features

Pure data, shared by specification and model.
-/

namespace Verif

/-- What the machine answers: the largest basic CPUID leaf, ECX of leaf 1, EBX of leaf 7 (subleaf 0) and the register
XCR0. `beyond` is what a CPUID query above the largest leaf puts into the register. (Vocabulary: the machine that
SIMDHelper.cpp asks.) -/
structure Cpu where
  maxLeaf : Nat
  ecx1 : Nat
  ebx7 : Nat
  xcr0 : Nat
  beyond : Nat
  deriving DecidableEq, Repr

/-- The compilers distinguished by the preprocessor. (Vocabulary: the machine that SIMDHelper.cpp asks.) -/
inductive Build
  | msvc | gcc | apple | unknown
  deriving DecidableEq, Repr

/-- Instruction set extensions. (Vocabulary: the machine that SIMDHelper.cpp asks.) -/
inductive Ext
  | sse41 | ssse3 | avx2 | avx512f | avx512bw
  deriving DecidableEq, Repr

end Verif
