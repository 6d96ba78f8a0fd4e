import Verif.Model.SimdCopy
import Verif.Model.QReverse
import Verif.Model.Unsafe
import Verif.VocabSimd

/-!
# The copying and reversing methods of the SIMD class

Model of unsafe/SIMD.cpp 14-92 and 288-325 on LP64 Linux, x86-64: the methods `memcpyX`, `memcpyXAligned` and `reverseX`
on the flat memory of the Unsafe model. The work itself is that of `Model/SimdCopy.lean` and `Model/QReverse.lean`.
Simplified: an access outside every living block is undefined behaviour of the whole call, whichever access comes first;
source and destination of a copy are `__restrict` pointers, so that ranges that overlap are undefined behaviour as well;
scalar accesses at addresses that are not multiples of the size of the type are taken to work, as they do on x86.
-/

namespace Verif.SimdCall

/-- The C++ types the templates are instantiated with. (SIMD.cpp 14-33, 288-325.) -/
inductive CType
  | int | uint | long | ulong | llong | ullong | short | ushort | float | double | ldouble | char | uchar | wchar
  | char16 | char32 | bool | int8 | uint8 | int16 | uint16 | int32 | uint32 | int64 | uint64 | ptr
  deriving DecidableEq, Repr

/-- `sizeof` on LP64 Linux. -/
def CType.size : CType → Nat
  | .int | .uint | .float | .wchar | .char32 | .int32 | .uint32 => 4
  | .long | .ulong | .llong | .ullong | .double | .int64 | .uint64 | .ptr => 8
  | .short | .ushort | .char16 | .int16 | .uint16 => 2
  | .ldouble => 16
  | .char | .uchar | .bool | .int8 | .uint8 => 1

/-- SIMD.cpp 289-324, `DEFINE_SIMD_FUNCTION(type, name)`, registered under the same name at 341-375. -/
def ctype : ElemName → CType
  | .int => .int
  | .unsignedInt => .uint
  | .long => .long
  | .unsignedLong => .ulong
  | .longLong => .llong
  | .unsignedLongLong => .ullong
  | .short => .short
  | .unsignedShort => .ushort
  | .float => .float
  | .double => .double
  | .longDouble => .ldouble
  | .char => .char
  | .unsignedChar => .uchar
  | .wChar => .wchar
  | .char16 => .char16
  | .char32 => .char32
  | .bool => .bool
  | .int8 => .int8
  | .uInt8 => .uint8
  | .int16 => .int16
  | .uInt16 => .uint16
  | .int32 => .int32
  | .uInt32 => .uint32
  | .int64 => .int64
  | .uInt64 => .uint64
  | .voidPtr => .ptr
  | .intPtr => .ptr
  | .floatPtr => .ptr
  | .pyObjectPtr => .ptr

/-- C-API `PyLong_AsUnsignedLongLong` and `PyLong_AsSize_t` when nobody looks at the error: the error value is
`(unsigned long long) -1`. (Called at SIMD.cpp 45-47, 67, 85.) -/
def word (a : Arg) : Nat × Option Exc :=
  match Unsafe.asSizeT a with
  | .ok v => (v, none)
  | .error e => (2 ^ 64 - 1, some e)

/-- C-API `PyLong_AsVoidPtr` when nobody looks at the error: the error value is the null pointer. (Called at SIMD.cpp
65, 66, 84.) -/
def pointer (a : Arg) : Nat × Option Exc :=
  match Unsafe.asVoidPtr a with
  | .ok v => (v, none)
  | .error e => (0, some e)

/-- `Py_RETURN_NONE` while the exception `e` may be set (SIMD.cpp 51, 71, 89). -/
def finish (m : Mem) (e : Option Exc) : Out Mem UVal :=
  match e with
  | none => .ok m .none
  | some e => .pending m .none e

/-- The elements of `sz` bytes from `a` on. Scaffolding of the model, no code of /repo. -/
def elems (m : Mem) (a sz n : Nat) : List (List Byte) := (List.range n).map fun i => m.read (a + i * sz) sz

/-- `simd::simdMemCpy` / `simdMemCpyAligned` (SIMDUtils.h 33-93, 104-164) between two places of the memory. -/
def copy (cfg : Cfg) (aligned : Bool) (sz : Nat) (m : Mem) (src dst n : Nat) : Except UB Mem :=
  if n = 0 then .ok m
  else if !m.covers src (n * sz) || !m.covers dst (n * sz) then .error .outOfBounds
  else if src < dst + n * sz ∧ dst < src + n * sz then .error .overlap
  else
    match simdMemCpy cfg aligned sz src dst (elems m src sz n) (elems m dst sz n) 0 n with
    | .error u => .error u
    | .ok xs => .ok (m.write dst xs.flatten)

/-- `simd::simdReverse` (SIMDUtils.h 173-176): `qReverse` on the bytes from `p` on. -/
def reverse (cfg : Cfg) (sz : Nat) (m : Mem) (p n : Nat) : Except UB Mem :=
  if n = 0 then .ok m
  else if !m.covers p (n * sz) then .error .outOfBounds
  else
    match qReverse cfg sz n fun i => m.byte (p + i) with
    | none => .error .outOfBounds
    | some b => .ok { m with byte := fun x => if p ≤ x then b (x - p) else m.byte x }

/-- SIMD.cpp 35-90: the three method templates. The number of arguments is checked, the conversions are not. -/
def call (cfg : Cfg) (f : SimdFn) (T : ElemName) (m : Mem) (args : List Arg) : Out Mem UVal :=
  let sz := (ctype T).size
  match f, args with
  | .memcpy, [a, b, c] =>
    match copy cfg false sz m (word a).1 (word b).1 (word c).1 with
    | .error u => .ub u
    | .ok m => finish m ((word c).2.or ((word b).2.or (word a).2))
  | .memcpyAligned, [a, b, c] =>
    match copy cfg true sz m (pointer a).1 (pointer b).1 (word c).1 with
    | .error u => .ub u
    | .ok m => finish m ((word c).2.or ((pointer b).2.or (pointer a).2))
  | .reverse, [a, c] =>
    match reverse cfg sz m (pointer a).1 (word c).1 with
    | .error u => .ub u
    | .ok m => finish m ((word c).2.or (pointer a).2)
  | _, _ => .exc m .typeError

end Verif.SimdCall
