import Verif.Vocab

/-!
# Vocabulary of the Unsafe class

Pure data, shared by specification and model.
-/

namespace Verif

/-- A byte. (Vocabulary of Unsafe.cpp 36-158, 253-296.) -/
abbrev Byte := Fin 256

/-- Live blocks (address, size) and the byte at every address. (Vocabulary of Unsafe.cpp 36-158, 253-296.) -/
structure Mem where
  blocks : List (Nat × Nat)
  byte : Nat → Byte

/-- What the C allocator answers to one request: null, or the address of the new block and the bytes that happen to
be there. (Vocabulary of Unsafe.cpp 36-158, 253-296.) -/
abbrev Alloc := Option (Nat × (Nat → Byte))

/-- Calls on an `Unsafe` object that allocate or access memory. (Vocabulary of Unsafe.cpp 36-158, 253-296.) -/
inductive UOp
  | malloc (n : Arg)
  | calloc (num size : Arg)
  | realloc (p n : Arg)
  | free (p : Arg)
  | alignedMalloc (n alignment : Arg)
  | alignedFree (p : Arg)
  | get (p n : Arg)
  | set (p : Arg) (data : Option (List Byte))   -- `none` = not a bytes object
  | memcpy (src dst n : Arg)
  | memset (p v n : Arg)
  deriving DecidableEq, Repr

/-- Results. (Vocabulary of Unsafe.cpp 36-158, 253-296.) -/
inductive UVal
  | none
  | addr (p : Nat)
  | bytes (b : List Byte)
  deriving DecidableEq, Repr

end Verif
