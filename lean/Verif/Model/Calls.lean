import Verif.Model.Unsafe
import Verif.VocabCalls

/-!
# Unsafe.callVoid, callInt, callLongLong, call

unsafe/Unsafe.cpp 160-243 on x86-64. The code called is a parameter: it may change the memory as it likes and leaves values in
the registers. Simplified: it does not touch the interpreter.
-/

namespace Verif.Calls

open Verif.Unsafe (asVoidPtr asSizeT lastError err)

/-- Results. (Unsafe.cpp 160-243.) -/
inductive CVal
  | none
  | int (p : PyLong)

/-- Outcomes of a call. Scaffolding of the model, no code of /repo. -/
abbrev COut := Out Mem CVal

/-- Run the code at the address; an address that is none of code is used as something it is not. (The calls through a
function pointer in Unsafe.cpp 160-243.) -/
def enter (code : Code) (f : Nat) (m : Mem) : Except UB (Regs × Mem) :=
  match code f m with
  | .none => .error .typeConfusion
  | .some r => .ok r

/-- Unsafe.cpp 160-176, `callVoid`. -/
def callVoid (code : Code) (m : Mem) (args : List Arg) : COut :=
  match args with
  | [f] =>
    match asVoidPtr f with
    | .error e => .exc m e
    | .ok f =>
      match enter code f m with
      | .error u => .ub u
      | .ok (_, m) => .ok m .none
  | _ => .exc m .typeError

/-- Unsafe.cpp 178-192, `callInt`: the value is in the low half of rax. -/
def callInt (py : PyVer) (code : Code) (m : Mem) (args : List Arg) : COut :=
  match args with
  | [f] =>
    match asVoidPtr f with
    | .error e => .exc m e
    | .ok f =>
      match enter code f m with
      | .error u => .ub u
      | .ok (r, m) => .ok m (.int (fromInt py (wrapS 32 r.rax)))
  | _ => .exc m .typeError

/-- Unsafe.cpp 194-208, `callLongLong`. -/
def callLongLong (code : Code) (m : Mem) (args : List Arg) : COut :=
  match args with
  | [f] =>
    match asVoidPtr f with
    | .error e => .exc m e
    | .ok f =>
      match enter code f m with
      | .error u => .ub u
      | .ok (r, m) => .ok m (.int (canon (wrapS 64 r.rax)))
  | _ => .exc m .typeError

/-- The bytes of the local variable `buffer`, lowest first. (Unsafe.cpp 225-242.) -/
def bytesOf : Nat → Nat → List Byte
  | 0, _ => []
  | n + 1, v => Fin.ofNat 256 v :: bytesOf n (v / 256)

/-- Unsafe.cpp 225-242: the call and the copy of the result. `fast_memcpy` copies like `memcpy` (module SimdCopy). -/
def finish (code : Code) (m : Mem) (f result size : Nat) : COut :=
  match enter code f m with
  | .error u => .ub u
  | .ok (r, m) =>
    if size = 0 then .ok m .none
    else if size > 8 then
      if m.covers r.rax size && m.covers result size then
        if r.rax + size ≤ result ∨ result + size ≤ r.rax then .ok (m.write result (m.read r.rax size)) .none else .ub .overlap
      else .ub .outOfBounds
    else if m.covers result size then .ok (m.write result (bytesOf size r.rax)) .none
    else .ub .outOfBounds

/-- Unsafe.cpp 210-243, `call(func, result, size)`: all arguments are converted before the error check. -/
def call (code : Code) (m : Mem) (args : List Arg) : COut :=
  match args with
  | [f, result, size] =>
    match asVoidPtr f, asVoidPtr result, asSizeT size with
    | .ok f, .ok result, .ok size => finish code m f result size
    | a, b, c =>
      match lastError [err a, err b, err c] with
      | some e => .exc m e
      | none => .exc m .systemError
  | _ => .exc m .typeError

end Verif.Calls
