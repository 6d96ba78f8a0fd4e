/-!
# Vocabulary of the copying and reversing methods of the SIMD class

Pure data, shared by specification and model.
-/

namespace Verif

/-- The suffix of a method name, as in `memcpyInt`, `memcpyIntAligned`, `reverseInt`. (Vocabulary of SIMD.cpp 14-92,
288-325.) -/
inductive ElemName
  | int | unsignedInt | long | unsignedLong | longLong | unsignedLongLong | short | unsignedShort
  | float | double | longDouble
  | char | unsignedChar | wChar | char16 | char32
  | bool
  | int8 | uInt8 | int16 | uInt16 | int32 | uInt32 | int64 | uInt64
  | voidPtr | intPtr | floatPtr | pyObjectPtr
  deriving DecidableEq, Repr

/-- `memcpyX`, `memcpyXAligned`, `reverseX`. (Vocabulary of SIMD.cpp 14-92, 288-325.) -/
inductive SimdFn
  | memcpy | memcpyAligned | reverse
  deriving DecidableEq, Repr

end Verif
