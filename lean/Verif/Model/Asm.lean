import Verif.Model.Unsafe
import Verif.VocabAsm

/-!
# ASM: the registry of executable functions

Model of unsafe/ASM.cpp. The static map (15) is a list of entries, the newest first, at most one per address; the static
mutex (16) is a flag. All functions keep the interpreter lock, so calls do not overlap; locking the mutex while it is
taken never returns. Simplified: the machine code that `run` executes returns and leaves registry and heap alone; the
argument of a fast variant is a `bytes` / any object as `PyLong_AsVoidPtr` sees it; `assert` (217) is compiled out; the
copies of `fast_memcpy` are not modelled.
-/

namespace Verif

/-- Registry (address, size, old protection), mutex, live blocks of the allocator. (ASM.cpp 15-16.) -/
structure AsmState where
  reg : List (Nat × Nat × Nat)
  locked : Bool
  blocks : List Nat
  deriving DecidableEq, Repr

/-- Outcomes of a call. Scaffolding of the model, no code of /repo. -/
abbrev AsmOut := Out AsmState AsmVal

namespace Asm

/-- `map.at(p)`. (ASM.cpp 273.) -/
def lookup (r : List (Nat × Nat × Nat)) (p : Nat) : Option (Nat × Nat) := (r.find? fun e => e.1 == p).map (·.2)

/-- `map.erase(p)`. (ASM.cpp 290, 313.) -/
def erase (r : List (Nat × Nat × Nat)) (p : Nat) : List (Nat × Nat × Nat) := r.filter fun e => e.1 != p

/-- `map[p] = v`. (ASM.cpp 218, 251, 304.) -/
def store (r : List (Nat × Nat × Nat)) (p : Nat) (v : Nat × Nat) : List (Nat × Nat × Nat) := (p, v) :: erase r p

/-- `lock.lock()` followed by the rest of the call. (ASM.cpp 215, 270.) -/
def locking (s : AsmState) (k : AsmState → AsmOut) : AsmOut :=
  if s.locked then .ub .neverReturns else k { s with locked := true }

/-- `lock.unlock()`. (ASM.cpp 220, 292.) -/
def unlock (s : AsmState) : AsmState := { s with locked := false }

/-- `alignedFree(p)` followed by the rest of the call. (ASM.cpp 90-149, 211, 247, 289, 312.) -/
def release (s : AsmState) (p : Nat) (k : AsmState → AsmOut) : AsmOut :=
  if p = 0 then k s
  else if p ∈ s.blocks then k { s with blocks := s.blocks.erase p } else .ub .invalidFree

/-- Copy, make executable, run, restore, release (ASM.cpp 70-108, 122-165). A code object that is 16-byte aligned is run
in place; then the environment's `alloc` is `none` without meaning failure (`inPlace`). -/
def execute (s : AsmState) (inPlace : Bool) (env : AsmEnv) : AsmOut :=
  if inPlace then
    if !env.protect then .exc s .osError else if !env.restore then .exc s .osError else .ok s .none
  else
    match env.alloc with
    | none => .exc s .memoryError
    | some p =>
      let s := { s with blocks := p :: s.blocks }
      if !env.protect then release s p fun s => .exc s .osError
      else if !env.restore then release s p fun s => .exc s .osError
      else release s p fun s => .ok s .none

/-- ASM.cpp 45-115, `run`. -/
def run (s : AsmState) (args : List CodeArg) (inPlace : Bool) (env : AsmEnv) : AsmOut :=
  match args with
  | [.bytes 0] => .exc s .valueError
  | [.bytes _] => execute s inPlace env
  | _ => .exc s .typeError

/-- ASM.cpp 173-226, `makeFunction`. -/
def make (s : AsmState) (args : List CodeArg) (env : AsmEnv) : AsmOut :=
  match args with
  | [.bytes 0] => .exc s .valueError
  | [.bytes n] =>
    match env.alloc with
    | none => .exc s .memoryError
    | some p =>
      let s := { s with blocks := p :: s.blocks }
      if !env.protect then release s p fun s => .exc s .osError
      else locking s fun s => .ok (unlock { s with reg := store s.reg p (n, env.old) }) (.addr p)
  | _ => .exc s .typeError

/-- ASM.cpp 228-257, `makeFunctionFast`: no lock. -/
def makeFast (s : AsmState) (n : Nat) (env : AsmEnv) : AsmOut :=
  match env.alloc with
  | none => .exc s .memoryError
  | some p =>
    let s := { s with blocks := p :: s.blocks }
    if !env.protect then release s p fun s => .exc s .osError
    else .ok { s with reg := store s.reg p (n, env.old) } (.addr p)

/-- `PyLong_AsVoidPtr` without an error check: the null pointer, with the exception set. (ASM.cpp 267, 303.) -/
def asPtr (a : Arg) : Nat × Option Exc :=
  match Unsafe.asVoidPtr a with
  | .ok p => (p, none)
  | .error e => (0, some e)

/-- Return None, with whatever exception is still set. (ASM.cpp 110, 166, 293, 315.) -/
def done (s : AsmState) : Option Exc → AsmOut
  | none => .ok s .none
  | some e => .pending s .none e

/-- ASM.cpp 259-298, `freeFunction`: the early returns (278, 286) keep the mutex. -/
def free (s : AsmState) (args : List Arg) (env : AsmEnv) : AsmOut :=
  match args with
  | [a] =>
    let (p, e) := asPtr a
    locking s fun s =>
      match lookup s.reg p with
      | none => .exc s .valueError
      | some _ =>
        if !env.protect then .exc s .osError
        else release s p fun s => done (unlock { s with reg := erase s.reg p }) e
  | _ => .exc s .typeError

/-- ASM.cpp 300-320, `freeFunctionFast`: no lock; `map[p]` creates an entry (0, 0) for an unknown address. -/
def freeFast (s : AsmState) (a : Arg) (env : AsmEnv) : AsmOut :=
  let (p, e) := asPtr a
  let s := match lookup s.reg p with
    | none => { s with reg := store s.reg p (0, 0) }
    | some _ => s
  if !env.protect then .exc s .osError
  else release s p fun s => done { s with reg := erase s.reg p } e

/-- Method table (ASM.cpp 322-332) of the Windows build; `inPlace`: the code bytes happen to be 16-byte aligned. -/
def stepWin (s : AsmState) (op : AsmOp) (inPlace : Bool) (env : AsmEnv) : AsmOut :=
  match op with
  | .run args => run s args inPlace env
  | .runFast _ => execute s inPlace env
  | .make args => make s args env
  | .makeFast n => makeFast s n env
  | .free args => free s args env
  | .freeFast a => freeFast s a env

/-- The same for all other builds (ASM.cpp 111-114, 167-170, 222-225, 253-256, 294-297, 316-319). -/
def stepOther (s : AsmState) (_ : AsmOp) : AsmOut := .exc s .notImplementedError

/-- Outcomes of a history; it ends with a call that does not return or is undefined. Scaffolding of the model, no
code of /repo. -/
def history (s : AsmState) : List (AsmOp × Bool × AsmEnv) → List AsmOut
  | [] => []
  | (op, i, env) :: ops =>
    stepWin s op i env :: (match (stepWin s op i env).state? with | some s' => history s' ops | none => [])

end Asm
end Verif
