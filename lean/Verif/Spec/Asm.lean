import Verif.VocabAsm

/-!
# Specification: the executable functions that exist

The state is the list of addresses of functions that were made and not freed.
-/

namespace Verif.Spec

/-- The address an argument denotes. -/
def address : Arg → Option Nat
  | .int v => if -(2 ^ 63) ≤ v ∧ v < 2 ^ 64 then some (v % 2 ^ 64).toNat else none
  | _ => none

/-- Making a function of `n` bytes of code. -/
def asmMake (live : List Nat) (env : AsmEnv) : List Nat × Except Exc AsmVal :=
  match env.alloc with
  | none => (live, .error .memoryError)
  | some p => if env.protect then (p :: live, .ok (.addr p)) else (live, .error .osError)

/-- Running code once. -/
def asmRun1 (inPlace : Bool) (env : AsmEnv) : Except Exc AsmVal :=
  if !inPlace && env.alloc.isNone then .error .memoryError
  else if env.protect && env.restore then .ok .none
  else .error .osError

/-- Freeing the function an argument denotes. -/
def asmFree (live : List Nat) (a : Arg) (env : AsmEnv) : List Nat × Except Exc AsmVal :=
  match address a with
  | none => (live, .error .valueError)
  | some p =>
    if p ∈ live then if env.protect then (live.erase p, .ok .none) else (live, .error .osError)
    else (live, .error .valueError)

/-- One call: functions that exist afterwards, and the answer. -/
def asmStep (live : List Nat) (op : AsmOp) (inPlace : Bool) (env : AsmEnv) : List Nat × Except Exc AsmVal :=
  match op with
  | .run [.bytes 0] => (live, .error .valueError)
  | .run [.bytes _] => (live, asmRun1 inPlace env)
  | .run _ => (live, .error .typeError)
  | .runFast _ => (live, asmRun1 inPlace env)
  | .make [.bytes 0] => (live, .error .valueError)
  | .make [.bytes _] => asmMake live env
  | .make _ => (live, .error .typeError)
  | .makeFast _ => asmMake live env
  | .free [a] => asmFree live a env
  | .free _ => (live, .error .typeError)
  | .freeFast a => asmFree live a env

/-- Answers of a history. -/
def asmRun (live : List Nat) : List (AsmOp × Bool × AsmEnv) → List (Except Exc AsmVal)
  | [] => []
  | (op, i, env) :: ops => (asmStep live op i env).2 :: asmRun (asmStep live op i env).1 ops

/-- The allocator gives out addresses of new blocks: not null, not one of the `others` allocated before or a live
function. -/
def AllocFresh (others live : List Nat) (env : AsmEnv) : Prop :=
  ∀ p, env.alloc = some p → p ≠ 0 ∧ p ∉ others ∧ p ∉ live

/-- The call does not run into the early returns that keep the lock: functions are only freed while they exist, and
`freeFunction` can restore the protection. -/
def Harmless (live : List Nat) (op : AsmOp) (env : AsmEnv) : Prop :=
  match op with
  | .free [a] => (∃ p ∈ live, address a = some p) ∧ env.protect = true
  | .freeFast a => ∃ p ∈ live, address a = some p
  | _ => True

/-- All calls of a history satisfy the two conditions, judged on the functions that exist. -/
def AsmOk (others : List Nat) : List Nat → List (AsmOp × Bool × AsmEnv) → Prop
  | _, [] => True
  | live, (op, i, env) :: ops =>
    AllocFresh others live env ∧ Harmless live op env ∧ AsmOk others (asmStep live op i env).1 ops

/-- The allocator gives out new addresses throughout a history. -/
def AsmFresh (others : List Nat) : List Nat → List (AsmOp × Bool × AsmEnv) → Prop
  | _, [] => True
  | live, (op, i, env) :: ops => AllocFresh others live env ∧ AsmFresh others (asmStep live op i env).1 ops

end Verif.Spec
