import Verif.Model.Base
import Verif.VocabStream

/-!
# Unsafe.fputs, fflush, fgets

unsafe/Unsafe.cpp 312-354 with the C library's streams as lists of bytes: `input` is everything that will still arrive on
standard input (its end is the end of the stream; read errors are not modelled), `waiting` what is in the buffer of standard
output, `sent` what has left it. `UnicodeEncodeError` and `UnicodeDecodeError` count as the `ValueError`s they are.
-/

namespace Verif.Stream

/-- The streams, and the bytes allocated by `fgets` that nothing frees any more. (The C library's `stdin` and
`stdout`; Unsafe.cpp 312-354.) -/
structure Std where
  input : List Nat
  sent : List Nat
  waiting : List Nat
  lost : Nat

/-- CPython's UTF-8 encoder for one code point; surrogates are refused. -/
def encodeChar (c : Nat) : Option (List Nat) :=
  if c < 0x80 then some [c]
  else if c < 0x800 then some [0xC0 + c / 0x40, 0x80 + c % 0x40]
  else if 0xD800 ≤ c ∧ c < 0xE000 then none
  else if c < 0x10000 then some [0xE0 + c / 0x1000, 0x80 + c / 0x40 % 0x40, 0x80 + c % 0x40]
  else some [0xF0 + c / 0x40000, 0x80 + c / 0x1000 % 0x40, 0x80 + c / 0x40 % 0x40, 0x80 + c % 0x40]

/-- `PyUnicode_AsUTF8`. (CPython; called at Unsafe.cpp 318.) -/
def asUTF8 : Str → Option (List Nat)
  | [] => some []
  | c :: s =>
    match encodeChar c, asUTF8 s with
    | some a, some b => some (a ++ b)
    | _, _ => none

/-- A C string ends at the first zero byte. (C; Unsafe.cpp 323.) -/
def cstring (bs : List Nat) : List Nat := bs.takeWhile (· != 0)

/-- The C library sends the first `k` waiting bytes. (C library.) -/
def send (k : Nat) (io : Std) : Std :=
  { io with sent := io.sent ++ io.waiting.take k, waiting := io.waiting.drop k }

/-- Unsafe.cpp 312-326, `fputs`. -/
def fputs (s : StrArg) (k : Nat) (io : Std) : Std × Option Exc :=
  match s with
  | .other => (io, some .typeError)
  | .str s =>
    match asUTF8 s with
    | none => (io, some .valueError)
    | some bs => (send k { io with waiting := io.waiting ++ cstring bs }, none)

/-- Unsafe.cpp 328-332, `fflush`. -/
def fflush (io : Std) : Std × Option Exc := (send io.waiting.length io, none)

/-- One call. (Unsafe.cpp 312-332.) -/
def put : Put → Std → Std × Option Exc
  | .fputs s k, io => fputs s k io
  | .fflush, io => fflush io

/-- Calls one after the other; exceptions do not end the history. Scaffolding of the model, no code of /repo. -/
def puts : List Put → Std → Std × List (Option Exc)
  | [], io => (io, [])
  | op :: ops, io => ((puts ops (put op io).1).1, (put op io).2 :: (puts ops (put op io).1).2)

/-- A continuation byte. (UTF-8; `PyUnicode_FromString` of CPython.) -/
def cont (b : Nat) : Bool := 0x80 ≤ b && b < 0xC0

/-- CPython's strict UTF-8 decoder (`PyUnicode_DecodeUTF8`): overlong forms, surrogates and code points above 0x10FFFF are
refused. -/
def decode : List Nat → Option Str
  | [] => some []
  | b :: bs =>
    if b < 0x80 then (decode bs).map (b :: ·)
    else if b < 0xC2 then none
    else if b < 0xE0 then
      match bs with
      | b1 :: bs => if cont b1 then (decode bs).map (((b - 0xC0) * 0x40 + (b1 - 0x80)) :: ·) else none
      | _ => none
    else if b < 0xF0 then
      match bs with
      | b1 :: b2 :: bs =>
        if cont b1 && cont b2 && !(b == 0xE0 && b1 < 0xA0) && !(b == 0xED && 0xA0 ≤ b1) then
          (decode bs).map (((b - 0xE0) * 0x1000 + (b1 - 0x80) * 0x40 + (b2 - 0x80)) :: ·)
        else none
      | _ => none
    else if b < 0xF5 then
      match bs with
      | b1 :: b2 :: b3 :: bs =>
        if cont b1 && cont b2 && cont b3 && !(b == 0xF0 && b1 < 0x90) && !(b == 0xF4 && 0x90 ≤ b1) then
          (decode bs).map (((b - 0xF0) * 0x40000 + (b1 - 0x80) * 0x1000 + (b2 - 0x80) * 0x40 + (b3 - 0x80)) :: ·)
        else none
      | _ => none
    else none

/-- The bytes C's `fgets` reads: at most `k`, up to and including the first newline; and those left. (C library;
called at Unsafe.cpp 348.) -/
def readUpTo : Nat → List Nat → List Nat × List Nat
  | 0, bs => ([], bs)
  | _, [] => ([], [])
  | k + 1, b :: bs => if b = 10 then ([b], bs) else (b :: (readUpTo k bs).1, (readUpTo k bs).2)

/-- C's `fgets(buffer, n, stdin)` for `n ≥ 1` (glibc): with room for the terminator only, it returns the buffer at
once; it
returns null if the stream is at its end. (Called at Unsafe.cpp 348.) -/
def cfgets (n : Nat) (input : List Nat) : Option (List Nat) × List Nat :=
  if n = 1 then (some [], input)
  else if input = [] then (none, input)
  else (some (readUpTo (n - 1) input).1, (readUpTo (n - 1) input).2)

/-- Unsafe.cpp 340: `(int) PyLong_AsLong(size)`. -/
def bufferSize (size : Arg) : Int := wrapS 32 (asLong size).1

/-- Unsafe.cpp 341-353: the rest of `fgets`, for the buffer size. -/
def fgetsInto (n : Int) (io : Std) : Std × Except Exc Str :=
  if n ≤ 0 then (io, .error .valueError)
  else
    let io := { io with lost := io.lost + n.toNat }
    match cfgets n.toNat io.input with
    | (none, rest) => ({ io with input := rest }, .error .runtimeError)
    | (some bs, rest) =>
      match decode (cstring bs) with
      | none => ({ io with input := rest }, .error .valueError)
      | some s => ({ io with input := rest }, .ok s)

/-- Unsafe.cpp 334-354, `fgets`. -/
def fgets (size : Arg) (io : Std) : Std × Except Exc Str :=
  match size with
  | .int _ => fgetsInto (bufferSize size) io
  | _ => (io, .error .typeError)

/-- `k` calls of `fgets(n)`, whatever they answer: strings and exceptions. Scaffolding of the model, no code of
/repo. -/
def gets (n : Arg) : Nat → Std → Std × List (Except Exc Str)
  | 0, io => (io, [])
  | k + 1, io => ((gets n k (fgets n io).1).1, (fgets n io).2 :: (gets n k (fgets n io).1).2)

end Verif.Stream
