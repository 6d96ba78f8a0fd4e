/-!
# Vocabulary of the vector setters
-/

namespace Verif

/-- The six setters: vector and lane width in bytes. (Vocabulary of SIMD.cpp 138-286.) -/
inductive VecFn
  | avx512Vector32 | avx512Vector16 | avx512Vector8 | avx2Vector32 | avx2Vector16 | avx2Vector8
  deriving DecidableEq, Repr

/-- Bytes of the vector. (Vocabulary of SIMD.cpp 138-286.) -/
def VecFn.width : VecFn → Nat
  | .avx512Vector32 | .avx512Vector16 | .avx512Vector8 => 64
  | .avx2Vector32 | .avx2Vector16 | .avx2Vector8 => 32

/-- Bytes of a lane. (Vocabulary of SIMD.cpp 138-286.) -/
def VecFn.lane : VecFn → Nat
  | .avx512Vector32 | .avx2Vector32 => 4
  | .avx512Vector16 | .avx2Vector16 => 2
  | .avx512Vector8 | .avx2Vector8 => 1

end Verif
