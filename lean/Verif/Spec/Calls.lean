import Verif.VocabCalls

/-!
# Return values by the System V calling convention (x86-64), section 3.2.3

A value of up to 8 bytes comes back in rax, one of 9 to 16 bytes in rax and rdx; an `int` in the low half of rax, a `long long`
in rax, both in two's complement.
-/

namespace Verif.Calls.Spec

/-- The signed value of the low `bits` bits. -/
def signed (bits v : Nat) : Int :=
  if v % 2 ^ bits < 2 ^ (bits - 1) then (v % 2 ^ bits : Nat) else (v % 2 ^ bits : Nat) - 2 ^ bits

/-- The number the bytes of memory from `a` on stand for, lowest byte first. -/
def value (m : Mem) (a : Nat) : Nat → Nat
  | 0 => 0
  | n + 1 => (m.byte a).val + 256 * value m (a + 1) n

/-- A return value of `size` bytes as a number. -/
def returned (r : Regs) (size : Nat) : Nat := (r.rax + 2 ^ 64 * r.rdx) % 256 ^ size

/-- `m'` is `m` with a value of `size` bytes stored at `a`. -/
structure Stored (m m' : Mem) (a size v : Nat) : Prop where
  value : value m' a size = v
  rest : ∀ x, x < a ∨ a + size ≤ x → m'.byte x = m.byte x
  blocks : m'.blocks = m.blocks

end Verif.Calls.Spec
