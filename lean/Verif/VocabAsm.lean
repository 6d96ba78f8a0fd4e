import Verif.Vocab

/-!
# Vocabulary of the ASM class
-/

namespace Verif

/-- Argument of `run`, `makeFunction`: a `bytes` object of some length, or anything else. (Vocabulary of the calls in
ASM.cpp 45-332.) -/
inductive CodeArg
  | bytes (n : Nat)
  | other
  deriving DecidableEq, Repr

/-- Calls. The fast variants trust their argument; only calls with a `bytes` object of any length are considered.
(Vocabulary of the calls in ASM.cpp 45-332.) -/
inductive AsmOp
  | run (args : List CodeArg)
  | runFast (n : Nat)
  | make (args : List CodeArg)
  | makeFast (n : Nat)
  | free (args : List Arg)
  | freeFast (p : Arg)
  deriving DecidableEq, Repr

/-- What the operating system answers during a call: the address of the allocated block (`none` = out of memory), the
success of the first and of the second `VirtualProtect`, and the old protection it reports. (Vocabulary of the calls
in ASM.cpp 45-332.) -/
structure AsmEnv where
  alloc : Option Nat
  protect : Bool
  restore : Bool
  old : Nat
  deriving DecidableEq, Repr

/-- Results. (Vocabulary of the calls in ASM.cpp 45-332.) -/
inductive AsmVal
  | none
  | addr (p : Nat)
  deriving DecidableEq, Repr

end Verif
