import Verif.Model.SimdSet
import Verif.VocabLow

/-!
# The AVX-512 bindings: what a binding function does

Model of the functions of unsafe/SIMDLowAVX512.cpp, built with GCC or Clang on x86-64. The file is generated code with a
single shape; `Impl` is that shape as data (the tables are in `LowAVX512Table`), `exec` its meaning. Memory is that of
the Unsafe model; the intrinsics themselves and the C conversion from `double` to `float` are parameters. Simplified:
the effective types of C (strict aliasing) are not represented; `PyLong_AsVoidPtr` with an exception already pending
returns the address also when it is -1.
-/

namespace Verif.LowAVX512

/-- The expressions that convert a Python argument (line 18 and on): `*((T *) PyLong_AsVoidPtr(x))`, `PyFast_AsInt`,
`PyFast_AsShort`, `PyFast_AsChar`, `PyLong_AsLongLong`, `PyLong_AsUnsignedLong`, `PyLong_AsUnsignedLongLong`,
`PyFloat_AS_DOUBLE`. -/
inductive Conv
  | deref | asInt | asShort | asChar | asLongLong | asULong | asULongLong | asDouble
  deriving DecidableEq, Repr

/-- The declaration `T argK = (T) conv(args[K])`. (SIMDLowAVX512.cpp 11-28690, the first lines of every function.) -/
structure Decl where
  ty : CTy
  conv : Conv
  slot : Nat
  deriving DecidableEq, Repr

/-- The shapes of a function `SIMDLowAVX512_…_impl`. -/
inductive Impl
  /-- Raise NotImplementedError. -/
  | unsupported
  /-- Check the number of arguments, then (GCC and Clang) raise NotImplementedError. -/
  | immediate (nargs : Nat)
  /-- Check the number of arguments, convert, call the intrinsic `callee` with the variables `passed` (each cast to its
  own type), store a result of type `ret` through the address in `args[0]`, return None. -/
  | call (nargs : Nat) (decls : List Decl) (callee : Ident) (passed : List Nat) (ret : Option CTy)
  deriving DecidableEq, Repr

/-- How integer code sees the argument: a `float` is an object that is no integer. Scaffolding of the model, no code
of /repo. -/
def toArg : LArg → Arg
  | .obj a => a
  | .float _ => .other

/-- `(T *) PyLong_AsVoidPtr(x)` as an address to be dereferenced: null (with an exception pending) if the conversion
fails. (SIMDLowAVX512.cpp 11-28690.) -/
def address (t : CTy) (m : Mem) (a : LArg) : Except UB Nat :=
  match Unsafe.asVoidPtr (toArg a) with
  | .error _ => .error .nullDeref
  | .ok p =>
    if p = 0 then .error .nullDeref
    else if p % t.size ≠ 0 then .error .misaligned
    else if m.covers p t.size then .ok p
    else .error .outOfBounds

/-- C-API `PyLong_AsUnsignedLong`, `PyLong_AsUnsignedLongLong` on LP64: the value, or `(unsigned long) -1` with an
exception. -/
def asUnsigned (a : Arg) : CRes :=
  match Unsafe.asSizeT a with
  | .ok n => (n, none)
  | .error e => (-1, some e)

/-- PythonUtils.h 108-125, `PyFast_AsInt`, on any object: the fast path reads the object as an `int` object without a
check. -/
def fastInt (py : PyVer) : Arg → Except UB CRes
  | .int v => .ok (Verif.asInt py (canon v))
  | .index v =>
    match py with
    | .le311 => .error .typeConfusion
    | py => .ok (Verif.asInt py (canon v))
  | .other =>
    match py with
    | .le311 => .error .typeConfusion
    | _ => .ok (-1, some .typeError)

/-- PythonUtils.h 127-147, `PyFast_AsShort`, `PyFast_AsChar`, on any object. -/
def fastSmall (bits : Nat) (py : PyVer) : Arg → Except UB CRes
  | .int v => .ok (asSmall bits py (canon v), none)
  | _ => .error .typeConfusion

/-- The value of an integer variable as bytes. Scaffolding of the model, no code of /repo. -/
def intBytes (t : CTy) : Except UB CRes → Except UB (List Byte × Option Exc)
  | .error u => .error u
  | .ok (v, e) => .ok (SimdSet.laneBytes t.size v, e)

/-- One declaration (line 18 and on): the bytes of the variable and the pending exception. Assigning to a narrower
integer type keeps the low bytes. -/
def convert (py : PyVer) (f32 : List Byte → List Byte) (m : Mem) (d : Decl) (a : LArg) :
    Except UB (List Byte × Option Exc) :=
  match d.conv with
  | .deref =>
    match address d.ty m a with
    | .error u => .error u
    | .ok p => .ok (m.read p d.ty.size, none)
  | .asInt => intBytes d.ty (fastInt py (toArg a))
  | .asShort => intBytes d.ty (fastSmall 16 py (toArg a))
  | .asChar => intBytes d.ty (fastSmall 8 py (toArg a))
  | .asLongLong => intBytes d.ty (.ok (asLong (toArg a)))
  | .asULong | .asULongLong => intBytes d.ty (.ok (asUnsigned (toArg a)))
  | .asDouble =>
    match a with
    | .float bytes => .ok (if d.ty = .float then f32 bytes else bytes, none)
    | .obj _ => .error .typeConfusion

/-- The declarations in order: the variables by number and the exception pending at the end. An argument that is not
there cannot be read. (SIMDLowAVX512.cpp 11-28690, the first lines of every function.) -/
def declare (py : PyVer) (f32 : List Byte → List Byte) (m : Mem) (args : List LArg) :
    List Decl → Except UB (List (Nat × List Byte) × Option Exc)
  | [] => .ok ([], none)
  | d :: ds =>
    match args[d.slot]? with
    | none => .error .outOfBounds
    | some a =>
      match convert py f32 m d a with
      | .error u => .error u
      | .ok (v, e) =>
        match declare py f32 m args ds with
        | .error u => .error u
        | .ok (env, e') => .ok ((d.slot, v) :: env, e'.or e)

/-- `Py_RETURN_NONE`, with the exception the conversions left pending. (SIMDLowAVX512.cpp 11-28690, the last line of
every function.) -/
def done (m : Mem) : Option Exc → Out Mem UVal
  | none => .ok m .none
  | some e => .pending m .none e

/-- A function `SIMDLowAVX512_…_impl(args, nargs)` (lines 11-28690). The value is computed before the address it is
stored to (C++17 assignment). -/
def exec (py : PyVer) (f32 : List Byte → List Byte) (I : Intrinsics) (m : Mem) (args : List LArg) : Impl → Out Mem UVal
  | .unsupported => .exc m .notImplementedError
  | .immediate n => if args.length ≠ n then .exc m .typeError else .exc m .notImplementedError
  | .call n decls callee passed ret =>
    if args.length ≠ n then .exc m .typeError
    else
      match declare py f32 m args decls with
      | .error u => .ub u
      | .ok (env, e) =>
        match I callee (passed.map fun k => (env.lookup k).getD []) m with
        | none => .ub .outOfBounds
        | some (v, m') =>
          match ret with
          | none => done m' e
          | some t =>
            match args[0]? with
            | none => .ub .outOfBounds
            | some a =>
              match address t m' a with
              | .error u => .ub u
              | .ok p => done (m'.write p v) e

end Verif.LowAVX512
