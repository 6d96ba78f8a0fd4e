import Verif.VocabCpu

/-!
# CPU feature detection

Model of utils/simd/SIMDHelper.cpp. Registers are natural numbers; `int` and `unsigned` registers are tested with a
mask of one bit, where they behave alike. Not modelled: ARM (284-298) and the ill-formed branch for GCC before
version 8 (137-145).
-/

namespace Verif.CpuDetect

/-- `(x & (1 << k)) != 0`. (SIMDHelper.cpp 36, 52, 53, 65 and so on.) -/
def bit (x k : Nat) : Bool := decide (x &&& (1 <<< k) ≠ 0)

/-- ECX of leaf 1 as MSVC's `__cpuid` gives it (no check of the largest leaf). (SIMDHelper.cpp 33, 51, 72, 93, 105.)
-/
def msvcEcx1 (c : Cpu) : Nat := if 1 ≤ c.maxLeaf then c.ecx1 else c.beyond

/-- EBX of leaf 7 as MSVC's `__cpuidex` gives it (no check of the largest leaf). (SIMDHelper.cpp 64, 85.) -/
def msvcEbx7 (c : Cpu) : Nat := if 7 ≤ c.maxLeaf then c.ebx7 else c.beyond

/-- GCC's `__get_cpuid(1, …)`: fails when the leaf does not exist. (SIMDHelper.cpp 124, 153, 180, 206, 217.) -/
def getEcx1 (c : Cpu) : Option Nat := if 1 ≤ c.maxLeaf then some c.ecx1 else none

/-- GCC's `__get_cpuid_count(7, 0, …)`. (SIMDHelper.cpp 169, 196.) -/
def getEbx7 (c : Cpu) : Option Nat := if 7 ≤ c.maxLeaf then some c.ebx7 else none

/-- `osSupportsAVX`, SIMDHelper.cpp 31-45 (MSVC), 121-147 (GCC, Clang; 131 on macOS), 231-233. The GCC branch ignores a
failure of `__get_cpuid`; it is only called after that call succeeded, here a failure counts as `false`. -/
def osSupportsAVX (b : Build) (c : Cpu) : Bool :=
  match b with
  | .msvc => if bit (msvcEcx1 c) 27 then decide (c.xcr0 &&& 0x6 = 0x6) else false
  | .gcc =>
    match getEcx1 c with
    | none => false
    | some ecx => if bit ecx 27 then decide (c.xcr0 &&& 0x6 = 0x6) else false
  | .apple | .unknown => false

/-- `isAVX2Supported`, SIMDHelper.cpp 47-66, 149-174, 235-237. -/
def isAVX2Supported (b : Build) (c : Cpu) : Bool :=
  match b with
  | .msvc =>
    if !bit (msvcEcx1 c) 28 || !bit (msvcEcx1 c) 27 then false
    else if !osSupportsAVX b c then false
    else bit (msvcEbx7 c) 5
  | .gcc | .apple =>
    match getEcx1 c with
    | none => false
    | some ecx =>
      if !bit ecx 28 || !bit ecx 27 then false
      else if !osSupportsAVX b c then false
      else
        match getEbx7 c with
        | none => false
        | some ebx => bit ebx 5
  | .unknown => false

/-- `isAVX512Supported`, SIMDHelper.cpp 68-87, 176-201, 239-241. -/
def isAVX512Supported (b : Build) (c : Cpu) : Bool :=
  match b with
  | .msvc =>
    if !bit (msvcEcx1 c) 28 || !bit (msvcEcx1 c) 27 then false
    else if !osSupportsAVX b c then false
    else bit (msvcEbx7 c) 16
  | .gcc | .apple =>
    match getEcx1 c with
    | none => false
    | some ecx =>
      if !bit ecx 28 || !bit ecx 27 then false
      else if !osSupportsAVX b c then false
      else
        match getEbx7 c with
        | none => false
        | some ebx => bit ebx 16
  | .unknown => false

/-- `isSSE41Supported`, SIMDHelper.cpp 89-99, 203-212, 243-245. -/
def isSSE41Supported (b : Build) (c : Cpu) : Bool :=
  match b with
  | .msvc => bit (msvcEcx1 c) 19
  | .gcc | .apple =>
    match getEcx1 c with
    | none => false
    | some ecx => bit ecx 19
  | .unknown => false

/-- `isSSSE3Supported`, SIMDHelper.cpp 101-111, 214-223, 247-249. -/
def isSSSE3Supported (b : Build) (c : Cpu) : Bool :=
  match b with
  | .msvc => bit (msvcEcx1 c) 9
  | .gcc | .apple =>
    match getEcx1 c with
    | none => false
    | some ecx => bit ecx 9
  | .unknown => false

/-- The vector code of the library, by the flag that guards it. (The places listed at `guard`: SIMDUtils.h 52-147,
qreverse.hpp 184-266, BitonicSort.cpp 131-525.) -/
inductive Path
  | copySse | copyAvx2 | copyAvx512           -- simdMemCpy, simdMemCpyAligned
  | reverseSse | reverseAvx2 | reverseAvx512  -- qReverse
  | mergeSse | mergeAvx2 | mergeAvx512        -- doSingleMerge
  | sortAvx2 | sortAvx512                     -- sort8Epi32AVX2, sort16Epi32AVX512
  deriving DecidableEq, Repr

/-- The guard of each path: SIMDUtils.h 52, 64, 76, 123, 135, 147; qreverse.hpp 184, 230, 266 and the same for the other
element sizes; BitonicSort.cpp 131, 145, 159, 507, 525 and the same for `long long` and for reverse. -/
def guard (b : Build) (c : Cpu) : Path → Bool
  | .copySse | .mergeSse => isSSE41Supported b c
  | .reverseSse => isSSSE3Supported b c
  | .copyAvx2 | .reverseAvx2 | .mergeAvx2 | .sortAvx2 => isAVX2Supported b c
  | .copyAvx512 | .reverseAvx512 | .mergeAvx512 | .sortAvx512 => isAVX512Supported b c

/-- The extensions whose instructions the path executes, beyond SSE2 (always there on x86-64): `_mm_min_epi32`,
`_mm_max_epi32` are SSE4.1 (BitonicSort.cpp 159-172); `_mm_shuffle_epi8`, `_mm_alignr_epi8` SSSE3 (qreverse.hpp
266-300); integer `_mm256_*` AVX2; `_mm512_*` AVX-512F, except `_mm512_shuffle_epi8` (qreverse.hpp 208, 209) and
`_mm512_permutexvar_epi16` (qreverse.hpp 425, 426), which are AVX-512BW. -/
def needs : Path → List Ext
  | .copySse => []
  | .mergeSse => [.sse41]
  | .reverseSse => [.ssse3]
  | .copyAvx2 | .reverseAvx2 | .mergeAvx2 | .sortAvx2 => [.avx2]
  | .copyAvx512 | .mergeAvx512 | .sortAvx512 => [.avx512f]
  | .reverseAvx512 => [.avx512f, .avx512bw]

end Verif.CpuDetect
