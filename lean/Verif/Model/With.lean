import Verif.VocabWith
import Verif.Model.Base

/-!
# Unsafe, SIMD, SIMDLowAVX512 and ASM objects and their `with` statements

`X_init`, `X_dealloc`, `X_enter`, `X_exit` and the entries of the type tables: Unsafe.cpp 16-34, 357-358, 385-396; SIMD.cpp 98-116, 326-327,
380-391; SIMDLowAVX512.cpp 28699-28716, 34253-34254, 35641-35652; ASM.cpp 26-43, 323-324, 334-345. The four texts are the same but for
the names. Around them the `with` statement of CPython (BEFORE_WITH, WITH_EXCEPT_START) with the references its bound methods hold. Simplified:
subclasses written in Python are left out; no exception arrives from outside between two instructions.
-/

namespace Verif.With

/-- The process: how many objects have been made, the reference count of each, the variables, what was done, the objects given to
`tp_free`, in order. (Scaffolding of the model, no code of /repo.) -/
structure St where
  made : Nat
  rc : Nat → Nat
  env : Env
  done : List (Nat × Nat)
  freed : List Nat

/-- At the start. (Scaffolding of the model, no code of /repo.) -/
def St.start : St := ⟨0, fun _ => 0, [], [], []⟩

/-- The number `n` more or less at one place. (Scaffolding of the model, no code of /repo.) -/
def put (rc : Nat → Nat) (o n : Nat) : Nat → Nat := fun k => if k = o then n else rc k

/-- `Py_INCREF`; on an object that is gone it uses freed memory. (CPython.) -/
def incref (o : Nat) (s : St) : Except UB St :=
  if s.rc o = 0 then .error .useAfterFree else .ok { s with rc := put s.rc o (s.rc o + 1) }

/-- `X_dealloc` (Unsafe.cpp 21-23, SIMD.cpp 103-105, SIMDLowAVX512.cpp 28704-28706, ASM.cpp 31-33). -/
def dealloc (o : Nat) (s : St) : St := { s with freed := s.freed ++ [o] }

/-- `Py_DECREF`; the last one calls `tp_dealloc`. (CPython.) -/
def decref (o : Nat) (s : St) : Except UB St :=
  if s.rc o = 0 then .error .useAfterFree
  else
    let s := { s with rc := put s.rc o (s.rc o - 1) }
    .ok (if s.rc o = 0 then dealloc o s else s)

/-- Bind a variable to an object whose reference is handed over; the variable gives its old one back. (CPython, STORE_FAST.) -/
def store (x o : Nat) (s : St) : Except UB St :=
  match s.env.get x with
  | none => .ok { s with env := s.env.bind x o }
  | some p => decref p { s with env := s.env.bind x o }

/-- `T(...)`: `PyType_GenericNew` with `PyType_GenericAlloc`, then `X_init`, neither of which looks at the arguments (Unsafe.cpp 16-19, 391-394;
SIMD.cpp 98-101, 386-389; SIMDLowAVX512.cpp 28699-28702, 35647-35650; ASM.cpp 26-29, 340-343). -/
def construct (_ : Tool) (_ : Shape) (mem : Bool) (s : St) : St × Except Raised Nat :=
  if mem then ({ s with made := s.made + 1, rc := put s.rc s.made 1 }, .ok s.made)
  else (s, .error (.exc .memoryError))

/-- `X_enter`, METH_NOARGS (Unsafe.cpp 26-29, 357; SIMD.cpp 108-111, 326; SIMDLowAVX512.cpp 28708-28711, 34253; ASM.cpp 35-38, 323). -/
def enter (a : Shape) (o : Nat) (s : St) : Except UB (St × Except Raised Nat) :=
  if a.pos ≠ 0 ∨ a.kw ≠ [] then .ok (s, .error (.exc .typeError))
  else
    match incref o s with
    | .error u => .error u
    | .ok s => .ok (s, .ok o)

/-- `X_exit`, METH_FASTCALL: whether the result is true, as the `with` statement asks (Unsafe.cpp 31-34, 358; SIMD.cpp 113-116, 327;
SIMDLowAVX512.cpp 28713-28716, 34254; ASM.cpp 40-43, 324). -/
def exit (a : Shape) : Except Raised Bool :=
  if a.kw ≠ [] then .error (.exc .typeError) else .ok false

/-- The `with` statement on an object of which the stack owns one reference. (CPython, BEFORE_WITH and WITH_EXCEPT_START: the bound
`__enter__` and `__exit__` hold the object, the stack gives its reference back, `__enter__` is called and let go, its result is bound;
after the body `__exit__` is called with three arguments and let go. A true result of `__exit__` ends the exception.) -/
def withStmt (body : St → Except UB (St × Option Raised)) (o x : Nat) (s : St) : Except UB (St × Option Raised) := do
  let s ← incref o s
  let s ← incref o s
  let s ← decref o s
  let (s, r) ← enter Shape.none o s
  let s ← decref o s
  match r with
  | .error e =>
    let s ← decref o s
    return (s, some e)
  | .ok res =>
    let s ← store x res s
    let (s, e) ← body s
    let e := match exit ⟨3, []⟩ with
      | .error e' => some e'
      | .ok true => none
      | .ok false => e
    let s ← decref o s
    return (s, e)

/-- The run of a program. (The statements of CPython around the calls above.) -/
def exec : Prog → St → Except UB (St × Option Raised)
  | .skip, s => .ok (s, none)
  | .use n x, s =>
    match s.env.get x with
    | none => .ok (s, some .nameError)
    | some o => if s.rc o = 0 then .error .useAfterFree else .ok ({ s with done := s.done ++ [(n, o)] }, none)
  | .raise n, s => .ok (s, some (.own n))
  | .seq p q, s =>
    match exec p s with
    | .error u => .error u
    | .ok (s, none) => exec q s
    | .ok (s, some e) => .ok (s, some e)
  | .attempt p q, s =>
    match exec p s with
    | .error u => .error u
    | .ok (s, none) => .ok (s, none)
    | .ok (s, some _) => exec q s
  | .assign x y, s =>
    match s.env.get y with
    | none => .ok (s, some .nameError)
    | some o => do
      let s ← incref o s
      let s ← store x o s
      return (s, none)
  | .del x, s =>
    match s.env.get x with
    | none => .ok (s, some .nameError)
    | some o => do
      let s ← decref o { s with env := s.env.drop x }
      return (s, none)
  | .make t a mem x, s =>
    match construct t a mem s with
    | (s, .error e) => .ok (s, some e)
    | (s, .ok o) => do
      let s ← store x o s
      return (s, none)
  | .callEnter x y a, s =>
    match s.env.get y with
    | none => .ok (s, some .nameError)
    | some o => do
      let (s, r) ← enter a o s
      match r with
      | .error e => return (s, some e)
      | .ok res =>
        let s ← store x res s
        return (s, none)
  | .callExit y a, s =>
    match s.env.get y with
    | none => .ok (s, some .nameError)
    | some _ =>
      match exit a with
      | .error e => .ok (s, some e)
      | .ok _ => .ok (s, none)
  | .withNew t a mem x p, s =>
    match construct t a mem s with
    | (s, .error e) => .ok (s, some e)
    | (s, .ok o) => withStmt (exec p) o x s
  | .withOld y x p, s =>
    match s.env.get y with
    | none => .ok (s, some .nameError)
    | some o => do
      let s ← incref o s
      withStmt (exec p) o x s

end Verif.With
