import Verif.Vocab

/-!
# Outcomes, C integers, CPython integers

Shared base of the model: exceptions, undefined behaviour as a distinct outcome, fixed-width C
integers and the CPython integer object layout on which the fast conversions of
`utils/PythonUtils.h` work.
-/

namespace Verif

/-- Kinds of undefined behaviour / fatal machine faults in the C++ code, and a call that does not return. Scaffolding
of the model, no code of /repo. -/
inductive UB
  | outOfBounds        -- read/write outside the live elements of a block
  | badIterator        -- container operation called with an invalid iterator range
  | misaligned         -- aligned vector load/store on a misaligned address (#GP fault)
  | useAfterFree       -- access through a pointer/iterator to freed storage
  | nullDeref          -- null pointer dereference
  | signedOverflow     -- signed integer overflow
  | typeConfusion      -- object used as another object type without a check
  | overlap            -- `memcpy` between overlapping ranges
  | invalidFree        -- `free`/`realloc` of something that is not the address of a live block
  | neverReturns       -- the call does not terminate (not undefined, but there is no outcome either)
  | terminate          -- a C++ exception leaves the extension: `std::terminate` ends the process
  | stackOverflow      -- the C stack is exhausted by recursion
  | noGil              -- the Python C API is used by a thread that has released the interpreter lock
  deriving DecidableEq, Repr

/-- Outcome of one API call: normal return, exception, a result returned while the error indicator is
set (a contract violation the interpreter answers with SystemError or a later stray exception), or
undefined behaviour. The container state after the call is part of the first three. Scaffolding of the model, no code
of /repo. -/
inductive Out (σ α : Type) where
  | ok (s : σ) (a : α)
  | exc (s : σ) (e : Exc)
  | pending (s : σ) (a : α) (e : Exc)
  | ub (u : UB)
  deriving DecidableEq, Repr

/-- State after a call (`none` after undefined behaviour). Scaffolding of the model, no code of /repo. -/
def Out.state? : Out σ α → Option σ
  | .ok s _ => some s
  | .exc s _ => some s
  | .pending s _ _ => some s
  | .ub _ => none

/-- Interpreter families distinguished by the preprocessor branches
`IS_PYTHON_312_OR_LATER` / `IS_PYTHON_313_OR_LATER` (utils/PythonUtils.h 94-155). -/
inductive PyVer
  | le311 | v312 | ge313
  deriving DecidableEq, Repr

/-- Run-time configuration: interpreter family and the CPU feature flags
`IS_AVX512_SUPPORTED`, `IS_AVX2_SUPPORTED`, `IS_SSE41_SUPPORTED`, `IS_SSSE3_SUPPORTED`
(utils/simd/SIMDHelper.h). -/
structure Cfg where
  py : PyVer
  avx512 : Bool
  avx2 : Bool
  sse41 : Bool
  ssse3 : Bool
  deriving DecidableEq, Repr

/-! ## Fixed-width integers -/

/-- Conversion to a signed two's-complement integer of `bits` bits (`static_cast<int>(long)` and the
implicit narrowing in `int value = PyLong_AsLong(x)`). (IntArrayList.cpp 72, 92, 224.) -/
def wrapS (bits : Nat) (v : Int) : Int := Int.bmod v (2 ^ bits)

/-- `v` is representable in `bits`-bit two's complement. Scaffolding of the model, no code of /repo. -/
def FitsS (bits : Nat) (v : Int) : Prop := -(2 ^ (bits - 1) : Int) ≤ v ∧ v < (2 ^ (bits - 1) : Int)

instance (b : Nat) (v : Int) : Decidable (FitsS b v) := by unfold FitsS; infer_instance

/-- `PY_SSIZE_T_MAX` on LP64. -/
def ssizeMax : Int := 2 ^ 63 - 1

/-! ## CPython integers -/

/-- Layout of a CPython `int`: sign (-1, 0, 1) and little-endian digits in base 2^30
(`ob_size`/`ob_digit` up to 3.11, `lv_tag`/`ob_digit` from 3.12). -/
structure PyLong where
  sign : Int
  digits : List Nat
  deriving DecidableEq, Repr

/-- Magnitude of a digit sequence. (CPython's `ob_digit`.) -/
def digitsVal : List Nat → Nat
  | [] => 0
  | d :: ds => d + 2 ^ 30 * digitsVal ds

/-- Mathematical value of the object. (CPython's integer objects.) -/
def PyLong.value (p : PyLong) : Int := p.sign * (digitsVal p.digits : Int)

/-- Base-2^30 digits of a natural number, least significant first, no leading zero. -/
def digits30 (n : Nat) : List Nat :=
  if h : n = 0 then [] else n % 2 ^ 30 :: digits30 (n / 2 ^ 30)
termination_by n
decreasing_by exact Nat.div_lt_self (Nat.pos_of_ne_zero h) (by decide)

/-- The object CPython itself builds for the value `v` (`PyLong_FromLong`, `PyLong_FromLongLong`,
`PyLong_FromSsize_t`, integer literals): the unique normalised representation. -/
def canon (v : Int) : PyLong := ⟨v.sign, digits30 v.natAbs⟩

/-- The representation invariant every CPython integer routine relies on: digits below 2^30, most
significant digit non-zero, sign zero exactly for the empty digit sequence. -/
def PyLong.Normal (p : PyLong) : Prop :=
  (∀ d ∈ p.digits, d < 2 ^ 30) ∧ (p.digits.getLast? ≠ some 0) ∧
  (p.digits = [] ↔ p.sign = 0) ∧ (p.sign = 0 ∨ p.sign = 1 ∨ p.sign = -1)

/-- utils/PythonUtils.h 149-155, `PyFast_FromInt`. From 3.12 it calls
`_PyLong_FromDigits(value < 0, 1, (digit*)&value)`: one digit, namely the raw 32-bit pattern of the
two's-complement value, with the given sign flag. Before 3.12: `PyLong_FromLong`. -/
def fromInt (py : PyVer) (v : Int) : PyLong :=
  match py with
  | .le311 => canon v
  | _ => ⟨if v < 0 then -1 else 1, [(v % 2 ^ 32).toNat]⟩

/-- Result of a C conversion together with the error indicator: `(value, pending exception)`. Scaffolding of the
model, no code of /repo. -/
abbrev CRes := Int × Option Exc

/-- utils/PythonUtils.h 108-125, `PyFast_AsInt`. From 3.12: `PyLong_AsInt` / `_PyLong_AsInt` (value,
or -1 with OverflowError). Up to 3.11: first digit only, with the sign. -/
def asInt (py : PyVer) (p : PyLong) : CRes :=
  match py with
  | .le311 =>
    match p.sign, p.digits with
    | 0, _ => (0, none)
    | _, [] => (0, none)
    | s, d :: _ => (if s < 0 then - wrapS 32 d else wrapS 32 d, none)
  | _ => if FitsS 32 p.value then (p.value, none) else (-1, some .overflowError)

/-- utils/PythonUtils.h 127-136 / 138-147, `PyFast_AsShort` (`bits = 16`) and `PyFast_AsChar`
(`bits = 8`): `Py_SIZE` and the first digit only, on every version. On 3.12+ `Py_SIZE` of an int reads
`lv_tag` (as a signed word, `(ndigits << 3) | sign_bits` with sign bits 0, 1, 2 for positive, zero, negative), which is never
negative, and is zero never (zero has tag 1); so there the sign is lost. -/
def asSmall (bits : Nat) (py : PyVer) (p : PyLong) : Int :=
  match py with
  | .le311 =>
    match p.sign, p.digits with
    | 0, _ => 0
    | _, [] => 0
    | s, d :: _ => wrapS bits (if s < 0 then - wrapS 32 d else d)
  | _ => wrapS bits (p.digits.headD 0)

/-! ## Python objects passed as arguments -/

/-- C-API `PyLong_AsLong` / `PyLong_AsLongLong` / `PyLong_AsSsize_t` on LP64: 64-bit value, or -1 with
OverflowError (out of range) or TypeError (not an integer). -/
def asLong : Arg → CRes
  | .int v | .index v => if FitsS 64 v then (v, none) else (-1, some .overflowError)
  | .other => (-1, some .typeError)

/-- C-API `PyLong_AsSsize_t`: like `asLong`, but it accepts only real `int` objects
(TypeError otherwise, no `__index__`). (CPython; called at IntArrayList.cpp 36, 168, 312, 821.) -/
def asSsize : Arg → CRes
  | .int v => if FitsS 64 v then (v, none) else (-1, some .overflowError)
  | .index _ | .other => (-1, some .typeError)

/-- Format unit `n` of `PyArg_ParseTuple` (via `PyNumber_Index`, so `__index__` is accepted). (CPython; formats at
IntArrayList.cpp 29, 344, 402.) -/
def parseN (a : Arg) : CRes := asLong a

/-- Format unit `i`: C `int`, OverflowError out of its range. (CPython; format at IntArrayList.cpp 457.) -/
def parseI : Arg → CRes
  | .int v | .index v => if FitsS 32 v then (v, none) else (-1, some .overflowError)
  | .other => (-1, some .typeError)

/-- `PyLong_Check`. (CPython.) -/
def Arg.isInt : Arg → Bool
  | .int _ => true
  | _ => false

/-- `PyNumber_AsSsize_t(o, PyExc_IndexError)`: out-of-range raises IndexError. Only called after
`PyIndex_Check`. (CPython; called at IntArrayList.cpp 535, 602.) -/
def asSsizeIndex : Arg → CRes
  | .int v | .index v => if FitsS 64 v then (v, none) else (-1, some .indexError)
  | .other => (-1, some .typeError)

/-! ## Slices -/

/-- Clamping of an integer to the range of `Py_ssize_t`. (Part of CPython's `_PyEval_SliceIndex`.) -/
def clampSsize (v : Int) : Int :=
  if v < -(2 ^ 63) then -(2 ^ 63) else if ssizeMax < v then ssizeMax else v

/-- C-API `_PyEval_SliceIndex` with the default `d` for `None`: clamps to the range of `Py_ssize_t`;
TypeError for non-indices. (CPython; through IntArrayList.cpp 545, 612.) -/
def sliceIndex (d : Int) : Option Arg → Except Exc Int
  | none => .ok d
  | some (.int v) | some (.index v) => .ok (clampSsize v)
  | some .other => .error .typeError

/-- Step of a slice in `PySlice_Unpack`: default 1, zero is a ValueError, at least `-PY_SSIZE_T_MAX`. (CPython;
through IntArrayList.cpp 545, 612.) -/
def sliceStep (a : Option Arg) : Except Exc Int :=
  match sliceIndex 1 a with
  | .error e => .error e
  | .ok v => if v = 0 then .error .valueError else .ok (if v < -ssizeMax then -ssizeMax else v)

/-- C-API `PySlice_Unpack` (on a real slice object). (CPython; called at IntArrayList.cpp 545, 612.) -/
def sliceUnpack (s : SliceArg) : Except Exc (Int × Int × Int) :=
  match sliceStep s.step with
  | .error e => .error e
  | .ok step =>
    match sliceIndex (if step < 0 then ssizeMax else 0) s.start with
    | .error e => .error e
    | .ok start =>
      match sliceIndex (if step < 0 then -(2 ^ 63) else ssizeMax) s.stop with
      | .error e => .error e
      | .ok stop => .ok (start, stop, step)

/-- C-API `PySlice_AdjustIndices(length, &start, &stop, step)`: adjusted start, stop and slice length. (CPython;
called at IntArrayList.cpp 549, 616.) -/
def adjustIndices (len start stop step : Int) : Int × Int × Int :=
  let start :=
    if start < 0 then
      let s := start + len
      if s < 0 then (if step < 0 then -1 else 0) else s
    else if start ≥ len then (if step < 0 then len - 1 else len) else start
  let stop :=
    if stop < 0 then
      let s := stop + len
      if s < 0 then (if step < 0 then -1 else 0) else s
    else if stop ≥ len then (if step < 0 then len - 1 else len) else stop
  let n :=
    if step < 0 then
      if stop < start then (start - stop - 1) / (-step) + 1 else 0
    else
      if start < stop then (stop - start - 1) / step + 1 else 0
  (start, stop, n)

end Verif
