import Lean.Elab.Term
import Verif.VocabUnsafe

/-!
# Vocabulary of the AVX-512 bindings

C types, identifiers and Python arguments of the class `SIMDLowAVX512`. Identifiers are numbers, so that the kernel
compares them quickly: `id! "abc"` is the number whose digits in base 256, least significant first, are the
characters.
-/

namespace Verif

/-- An identifier of C or Python. (Vocabulary of SIMDLowAVX512.cpp and its stub file.) -/
abbrev Ident := Nat

/-- The number of an identifier. (Vocabulary of SIMDLowAVX512.cpp and its stub file.) -/
def Ident.code (s : String) : Ident := s.toList.foldr (fun c n => c.toNat + 256 * n) 0

open Lean Elab in
/-- The number of an identifier, as a literal. -/
elab "id! " s:str : term => return mkRawNatLit (Ident.code s.getString)

/-- C types of parameters and results. `ptr` stands for all pointer types, `constInt` and `enum` for parameters that
must be compile-time constants. (Vocabulary of SIMDLowAVX512.cpp and its stub file.) -/
inductive CTy
  | m128 | m128d | m128i | m256 | m256d | m256i | m512 | m512d | m512i | mask8 | mask16
  | char | uchar | short | int | uint | llong | ullong | float | double | ptr | constInt | enum
  deriving DecidableEq, Repr

/-- `sizeof` in the x86-64 ABI, which is also the alignment of each of these types. -/
def CTy.size : CTy → Nat
  | .m128 | .m128d | .m128i => 16
  | .m256 | .m256d | .m256i => 32
  | .m512 | .m512d | .m512i => 64
  | .mask8 | .char | .uchar => 1
  | .mask16 | .short => 2
  | .int | .uint | .float | .constInt | .enum => 4
  | .llong | .ullong | .double | .ptr => 8

/-- A Python argument: an object as far as integer code can tell, or a `float` with the given bytes. (Vocabulary of
SIMDLowAVX512.cpp and its stub file.) -/
inductive LArg
  | obj (a : Arg)
  | float (bytes : List Byte)
  deriving DecidableEq, Repr

/-- The intrinsics of the compiler: from the name, the bytes of the arguments and the memory to the bytes of the
result and the new memory; `none` = undefined behaviour. (Vocabulary of SIMDLowAVX512.cpp and its stub file.) -/
abbrev Intrinsics := Ident → List (List Byte) → Mem → Option (List Byte × Mem)

end Verif
