import Verif.VocabUnsafe

/-!
# Machine code called from Python

Pure data, shared by specification and model of `Unsafe.callVoid`, `callInt`, `callLongLong` and `call`.
-/

namespace Verif.Calls

/-- The registers that hold a return value (System V calling convention), as numbers below 2^64. -/
structure Regs where
  rax : Nat
  rdx : Nat

/-- What the code at an address does: the memory it leaves and the registers; `none` if there is no code, or it
crashes. (Vocabulary of the calls in Unsafe.cpp 160-243.) -/
abbrev Code := Nat → Mem → Option (Regs × Mem)

end Verif.Calls
