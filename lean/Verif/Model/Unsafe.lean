import Verif.Model.Base
import Verif.VocabUnsafe

/-!
# Unsafe: allocation and raw memory

Model of unsafe/Unsafe.cpp 36-158, 253-296 and utils/memory/AlignedAllocator.h 12-37 on LP64 Linux. Memory is the set
of live heap blocks and a flat array of bytes; an access outside every live block is undefined behaviour. The C
allocator is the environment: each request gets an answer from outside. Simplified: only heap blocks are modelled (no
stack, globals or Python objects), and the allocation of Python result objects does not fail. A zero-length access
does nothing, whatever the address.
-/

namespace Verif

namespace Mem

/-- The `n` bytes from `a` on lie in one live block. Scaffolding of the model, no code of /repo. -/
def covers (m : Mem) (a n : Nat) : Bool := n == 0 || m.blocks.any fun b => decide (b.1 ≤ a ∧ a + n ≤ b.1 + b.2)

/-- The bytes at `a`, …, `a + n - 1`. Scaffolding of the model, no code of /repo. -/
def read (m : Mem) (a n : Nat) : List Byte := (List.range n).map fun i => m.byte (a + i)

/-- Store bytes from address `a` on. Scaffolding of the model, no code of /repo. -/
def write (m : Mem) (a : Nat) (bs : List Byte) : Mem :=
  { m with byte := fun x => if a ≤ x then (bs[x - a]?).getD (m.byte x) else m.byte x }

/-- A new live block. Scaffolding of the model, no code of /repo. -/
def add (m : Mem) (p n : Nat) : Mem := { m with blocks := (p, n) :: m.blocks }

/-- Remove the block at `p`. Scaffolding of the model, no code of /repo. -/
def drop (m : Mem) (p : Nat) : Mem := { m with blocks := m.blocks.filter fun b => b.1 != p }

/-- Size of the live block at `p`. Scaffolding of the model, no code of /repo. -/
def sizeAt (m : Mem) (p : Nat) : Option Nat := (m.blocks.find? fun b => b.1 == p).map (·.2)

end Mem

namespace Unsafe

/-- Outcomes of a call. Scaffolding of the model, no code of /repo. -/
abbrev UOut := Out Mem UVal

/-- Format unit `K` of `PyArg_ParseTuple`: only `int` objects; the value modulo 2^64, without overflow check. -/
def argK : Arg → Except Exc Nat
  | .int v => .ok (v % 2 ^ 64).toNat
  | _ => .error .typeError

/-- C-API `PyLong_AsSize_t`, `PyLong_AsUnsignedLongLong`. (Called at Unsafe.cpp 37, 80, 108, 263, 286.) -/
def asSizeT : Arg → Except Exc Nat
  | .int v => if 0 ≤ v ∧ v < 2 ^ 64 then .ok v.toNat else .error .overflowError
  | _ => .error .typeError

/-- C-API `PyLong_AsVoidPtr` on LP64: a negative value through `PyLong_AsLong`, others through
`PyLong_AsUnsignedLong`. -/
def asVoidPtr : Arg → Except Exc Nat
  | .int v => if -(2 ^ 63) ≤ v ∧ v < 2 ^ 64 then .ok (v % 2 ^ 64).toNat else .error .overflowError
  | _ => .error .typeError

/-- The bytes the allocator left in a block of size `n` at `p`. Scaffolding of the model, no code of /repo. -/
def junkAt (p n : Nat) (junk : Nat → Byte) : List Byte := (List.range n).map fun i => junk (p + i)

/-- Unsafe.cpp 36-48, `malloc`. -/
def malloc (m : Mem) (n : Arg) (ans : Alloc) : UOut :=
  match asSizeT n with
  | .error e => .exc m e
  | .ok n =>
    match ans with
    | none => .exc m .memoryError
    | some (p, junk) => .ok ((m.add p n).write p (junkAt p n junk)) (.addr p)

/-- Unsafe.cpp 50-62, `calloc`. -/
def calloc (m : Mem) (num size : Arg) (ans : Alloc) : UOut :=
  match argK num, argK size with
  | .error e, _ | .ok _, .error e => .exc m e
  | .ok num, .ok size =>
    match ans with
    | none => .exc m .memoryError
    | some (p, _) => .ok ((m.add p (num * size)).write p (List.replicate (num * size) 0)) (.addr p)

/-- Unsafe.cpp 64-77, `realloc`. The C function with a null pointer allocates; with size 0 glibc frees the block and
returns null (`zeroFrees`), other libraries return a block. -/
def realloc (zeroFrees : Bool) (m : Mem) (p n : Arg) (ans : Alloc) : UOut :=
  match argK p, argK n with
  | .error e, _ | .ok _, .error e => .exc m e
  | .ok p, .ok n =>
    if p = 0 then
      match ans with
      | none => .exc m .memoryError
      | some (q, junk) => .ok ((m.add q n).write q (junkAt q n junk)) (.addr q)
    else
      match m.sizeAt p with
      | none => .ub .invalidFree
      | some old =>
        if n = 0 ∧ zeroFrees then .exc (m.drop p) .memoryError
        else
          match ans with
          | none => .exc m .memoryError
          | some (q, junk) =>
            .ok (((m.drop p).add q n).write q ((m.read p (min old n)) ++ (junkAt q n junk).drop (min old n))) (.addr q)

/-- Unsafe.cpp 79-87, `free`, and 107-115, `aligned_free` (AlignedAllocator.h 31-37: `std::free`). -/
def free (m : Mem) (p : Arg) : UOut :=
  match asSizeT p with
  | .error e => .exc m e
  | .ok p =>
    if p = 0 then .ok m .none
    else
      match m.sizeAt p with
      | none => .ub .invalidFree
      | some _ => .ok (m.drop p) .none

/-- Unsafe.cpp 89-105, `aligned_malloc` (AlignedAllocator.h 12-29: `std::aligned_alloc`). -/
def alignedMalloc (m : Mem) (n alignment : Arg) (ans : Alloc) : UOut :=
  match argK n, argK alignment with
  | .error e, _ | .ok _, .error e => .exc m e
  | .ok n, .ok _ =>
    match ans with
    | none => .exc m .memoryError
    | some (p, junk) => .ok ((m.add p n).write p (junkAt p n junk)) (.addr p)

/-- Unsafe.cpp 117-126, `get`: the size is stored in a `Py_ssize_t`; `PyBytes_FromStringAndSize` rejects negative sizes
(SystemError) and sizes above `PY_SSIZE_T_MAX - 33` (OverflowError); with a null pointer it reads nothing and returns
uninitialised bytes (those of `ans`). -/
def get (m : Mem) (p n : Arg) (ans : Alloc) : UOut :=
  match argK p, argK n with
  | .error e, _ | .ok _, .error e => .exc m e
  | .ok p, .ok n =>
    if 2 ^ 63 ≤ n then .exc m .systemError
    else if n = 0 then .ok m (.bytes [])
    else if 2 ^ 63 - 34 < n then .exc m .overflowError
    else if p = 0 then
      match ans with
      | none => .exc m .memoryError
      | some (q, junk) => .ok m (.bytes (junkAt q n junk))
    else if m.covers p n then .ok m (.bytes (m.read p n))
    else .ub .outOfBounds

/-- Unsafe.cpp 128-158, `set`. -/
def set (m : Mem) (p : Arg) (data : Option (List Byte)) : UOut :=
  match argK p with
  | .error e => .exc m e
  | .ok p =>
    match data with
    | none => .exc m .typeError
    | some bs => if m.covers p bs.length then .ok (m.write p bs) .none else .ub .outOfBounds

/-- The exception that is pending after several conversions without a check in between: the last one set. (CPython;
Unsafe.cpp 38, 81, 95, 109, 266, 289.) -/
def lastError (es : List (Option Exc)) : Option Exc := es.foldl (fun a e => e.or a) none

/-- Error of a conversion. Scaffolding of the model, no code of /repo. -/
def err {α : Type} : Except Exc α → Option Exc
  | .error e => some e
  | .ok _ => none

/-- Unsafe.cpp 253-274, `memcpy(from, to, size)`. -/
def memcpy (m : Mem) (src dst n : Arg) : UOut :=
  match asVoidPtr src, asVoidPtr dst, asSizeT n with
  | .ok src, .ok dst, .ok n =>
    if n = 0 then .ok m .none
    else if m.covers src n && m.covers dst n then
      if src + n ≤ dst ∨ dst + n ≤ src then .ok (m.write dst (m.read src n)) .none else .ub .overlap
    else .ub .outOfBounds
  | a, b, c =>
    match lastError [err a, err b, err c] with
    | some e => .exc m e
    | none => .exc m .systemError

/-- Unsafe.cpp 276-296, `memset(address, val, size)`: the value is truncated to `int`, then to a byte. -/
def memset (m : Mem) (p v n : Arg) : UOut :=
  match asVoidPtr p, asLong v, asSizeT n with
  | .ok p, (v, none), .ok n =>
    if m.covers p n then .ok (m.write p (List.replicate n (Fin.ofNat 256 (wrapS 32 v % 256).toNat))) .none
    else .ub .outOfBounds
  | a, b, c =>
    match lastError [err a, b.2, err c] with
    | some e => .exc m e
    | none => .exc m .systemError

/-- Method table (Unsafe.cpp 356-382). -/
def step (zeroFrees : Bool) (m : Mem) (op : UOp) (ans : Alloc) : UOut :=
  match op with
  | .malloc n => malloc m n ans
  | .calloc a b => calloc m a b ans
  | .realloc p n => realloc zeroFrees m p n ans
  | .free p => free m p
  | .alignedMalloc n a => alignedMalloc m n a ans
  | .alignedFree p => free m p
  | .get p n => get m p n ans
  | .set p d => set m p d
  | .memcpy a b n => memcpy m a b n
  | .memset p v n => memset m p v n

/-- Outcomes of a history; it ends at undefined behaviour. Scaffolding of the model, no code of /repo. -/
def run (zeroFrees : Bool) (m : Mem) : List (UOp × Alloc) → List UOut
  | [] => []
  | (op, ans) :: ops =>
    match step zeroFrees m op ans with
    | .ok m' r => .ok m' r :: run zeroFrees m' ops
    | .exc m' e => .exc m' e :: run zeroFrees m' ops
    | o => [o]

end Unsafe
end Verif
