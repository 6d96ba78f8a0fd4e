import Verif.VocabWith
import Verif.Model.Base

/-!
# Calls of methods of Unsafe, SIMD and ASM objects by name
-/

namespace Verif.Tools

open Verif.With (Shape)

/-- The three classes with handwritten method tables. (SIMDLowAVX512 has its own table, Model/LowAVX512Table. Vocabulary: what a Python
program does and sees; no code of /repo.) -/
inductive Cls
  | unsafeCls | simd | asm
  deriving DecidableEq, Repr

/-- What a call comes to, before the function looks at the values of its arguments. (Vocabulary: what a Python program does and sees;
no code of /repo.) -/
inductive Bound
  /-- the function goes on with its arguments -/
  | reached
  | raised (e : Exc)
  | attributeError
  | fault (u : UB)
  deriving DecidableEq, Repr

end Verif.Tools
