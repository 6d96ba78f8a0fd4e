import Verif.Model.Unsafe
import Verif.VocabVec

/-!
# The vector setters of the SIMD class

Model of unsafe/SIMD.cpp 138-286 on x86-64, on a CPU that has the instructions (see C40 for the detection; the setters
do not look at the flags). Memory is that of the Unsafe model. The order in which C++ evaluates the conversions is
unspecified; of several pending exceptions the one of the last argument is kept here.
-/

namespace Verif.SimdSet

/-- Number of value arguments: SIMD.cpp 141 (17 arguments), 163 (33), 189 (65), 223 (9), 243 (17), 265 (33), including the
pointer. -/
def nargs : VecFn → Nat
  | .avx512Vector32 => 16
  | .avx512Vector16 => 32
  | .avx512Vector8 => 64
  | .avx2Vector32 => 8
  | .avx2Vector16 => 16
  | .avx2Vector8 => 32

/-- Conversion of one value argument: `PyFast_AsInt` (SIMD.cpp 147-150, 229-230), `PyFast_AsShort` (169-176, 249-252),
`PyFast_AsChar` (195-210, 271-278). The fast paths read the object as an `int` object without a check; only
`PyLong_AsInt` of 3.12+ checks (it accepts `__index__`). -/
def conv (py : PyVer) (f : VecFn) (a : Arg) : Except UB CRes :=
  match f, a with
  | .avx512Vector32, .int v | .avx2Vector32, .int v => .ok (asInt py (canon v))
  | .avx512Vector32, .index v | .avx2Vector32, .index v =>
    match py with
    | .le311 => .error .typeConfusion
    | py => .ok (asInt py (canon v))
  | .avx512Vector32, .other | .avx2Vector32, .other =>
    match py with
    | .le311 => .error .typeConfusion
    | _ => .ok (-1, some .typeError)
  | .avx512Vector16, .int v | .avx2Vector16, .int v => .ok (asSmall 16 py (canon v), none)
  | .avx512Vector8, .int v | .avx2Vector8, .int v => .ok (asSmall 8 py (canon v), none)
  | _, _ => .error .typeConfusion

/-- The conversions of all value arguments, with the exception that remains pending. (SIMD.cpp 138-286.) -/
def convs (py : PyVer) (f : VecFn) : List Arg → Except UB (List Int × Option Exc)
  | [] => .ok ([], none)
  | a :: as =>
    match conv py f a with
    | .error u => .error u
    | .ok (v, e) =>
      match convs py f as with
      | .error u => .error u
      | .ok (vs, e') => .ok (v :: vs, e'.or e)

/-- The bytes of a lane of `n` bytes, least significant first. (`_mm256_set_epi*` and `_mm512_set_epi*` at SIMD.cpp
138-286.) -/
def laneBytes : Nat → Int → List Byte
  | 0, _ => []
  | n + 1, v => Fin.ofNat 256 (v % 256).toNat :: laneBytes n (v / 256)

/-- `_mm512_set_epi32(e15, …, e0)` and its siblings: the last argument is the lowest lane. -/
def setLanes (f : VecFn) (vs : List Int) : List Byte := (vs.reverse.map (laneBytes f.lane)).flatten

/-- SIMD.cpp 138-286, `setAVX512Vector32`, … `setAVX2Vector8`: check the number of arguments, convert, store through an
aligned vector pointer, return None. No conversion error is looked at. -/
def setVector (py : PyVer) (f : VecFn) (m : Mem) (args : List Arg) : Out Mem UVal :=
  match args with
  | [] => .exc m .typeError
  | ptr :: values =>
    if values.length ≠ nargs f then .exc m .typeError
    else
      match convs py f values with
      | .error u => .ub u
      | .ok (vs, e) =>
        match Unsafe.asVoidPtr ptr with
        | .error _ => .ub .nullDeref
        | .ok p =>
          if p = 0 then .ub .nullDeref
          else if p % f.width ≠ 0 then .ub .misaligned
          else if m.covers p f.width then
            match e with
            | none => .ok (m.write p (setLanes f vs)) .none
            | some e => .pending (m.write p (setLanes f vs)) .none e
          else .ub .outOfBounds

end Verif.SimdSet
