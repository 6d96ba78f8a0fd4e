import Verif.VocabStream

/-!
# Text on standard streams

UTF-8 after RFC 3629, and what the documentation says of `fputs` and `fgets` (unsafe/Unsafe.pyi).
-/

namespace Verif.Stream.Spec

/-- A code point that is a character: not a surrogate. -/
def Scalar (c : Nat) : Prop := c < 0xD800 ∨ 0xE000 ≤ c ∧ c < 0x110000

instance (c : Nat) : Decidable (Scalar c) := by unfold Scalar; infer_instance

/-- The bytes of a character. -/
def utf8 (c : Nat) : List Nat :=
  if c < 0x80 then [c]
  else if c < 0x800 then [0xC0 + c / 64, 0x80 + c % 64]
  else if c < 0x10000 then [0xE0 + c / 4096, 0x80 + c / 64 % 64, 0x80 + c % 64]
  else [0xF0 + c / 262144, 0x80 + c / 4096 % 64, 0x80 + c / 64 % 64, 0x80 + c % 64]

/-- The bytes of a text. -/
def encode (s : Str) : List Nat := s.flatMap utf8

/-- At most `k` characters, up to and including the first newline, and what follows. -/
def take : Nat → Str → Str × Str
  | 0, t => ([], t)
  | _, [] => ([], [])
  | k + 1, c :: t => if c = 10 then ([c], t) else (c :: (take k t).1, (take k t).2)

/-- `fgets(n)` on the text `t`: the piece returned (empty at the end of the text) and the text that is left. -/
def fgets (n : Nat) (t : Str) : Str × Str := take (n - 1) t

/-- `ps` is a division of `t` into pieces as repeated calls of `fgets(n)` should return them: no piece is empty, contains a
newline except at its end, or has more than `n - 1` characters, and a piece other than the last is a line or full. -/
structure Pieces (n : Nat) (t : Str) (ps : List Str) : Prop where
  all : ps.flatten = t
  nonempty : ∀ p ∈ ps, p ≠ []
  line : ∀ p ∈ ps, 10 ∉ p.dropLast
  short : ∀ p ∈ ps, p.length ≤ n - 1
  full : ∀ p ∈ ps.dropLast, p.getLast? = some 10 ∨ p.length = n - 1

/-- What `fputs` calls put on the stream: the texts that can be written, in order. -/
def written : List Put → List Nat
  | [] => []
  | .fputs (.str s) _ :: os => (if ∀ c ∈ s, Scalar c then encode s else []) ++ written os
  | _ :: os => written os

/-- Which calls raise: no string, or a string that is no text (`UnicodeEncodeError`, a `ValueError`). -/
def answers : List Put → List (Option Exc)
  | [] => []
  | .fputs (.str s) _ :: os => (if ∀ c ∈ s, Scalar c then none else some .valueError) :: answers os
  | .fputs .other _ :: os => some .typeError :: answers os
  | .fflush :: os => none :: answers os

end Verif.Stream.Spec
