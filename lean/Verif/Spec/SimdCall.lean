import Verif.VocabSimd
import Verif.VocabUnsafe

/-!
# What the copying and reversing methods of the SIMD class do to memory
-/

namespace Verif.Spec

/-- Bytes of an element on a 64-bit Linux, by the name of the method. -/
def elemBytes : ElemName → Nat
  | .char | .unsignedChar | .bool | .int8 | .uInt8 => 1
  | .short | .unsignedShort | .char16 | .int16 | .uInt16 => 2
  | .int | .unsignedInt | .float | .wChar | .char32 | .int32 | .uInt32 => 4
  | .long | .unsignedLong | .longLong | .unsignedLongLong | .double | .int64 | .uInt64 | .voidPtr | .intPtr | .floatPtr
  | .pyObjectPtr => 8
  | .longDouble => 16

/-- The `n` bytes at `src` are now at `dst` too; no other byte has changed and no block has come or gone. -/
def MemCopied (m m' : Mem) (src dst n : Nat) : Prop :=
  m'.blocks = m.blocks ∧ (∀ i, i < n → m'.byte (dst + i) = m.byte (src + i)) ∧
  ∀ x, x < dst ∨ dst + n ≤ x → m'.byte x = m.byte x

/-- The `count` elements of `w` bytes at `p` are in opposite order; no other byte has changed and no block has come or
gone. -/
def MemReversed (m m' : Mem) (p w count : Nat) : Prop :=
  m'.blocks = m.blocks ∧
  (∀ e b, e < count → b < w → m'.byte (p + e * w + b) = m.byte (p + (count - 1 - e) * w + b)) ∧
  ∀ x, x < p ∨ p + count * w ≤ x → m'.byte x = m.byte x

/-- The `n` bytes from `a` on belong to one living block. -/
def Alive (m : Mem) (a n : Nat) : Prop := ∃ b ∈ m.blocks, b.1 ≤ a ∧ a + n ≤ b.1 + b.2

/-- Living blocks are where a 64-bit process has memory: not at address 0, and not up to the last byte. -/
def Sane (m : Mem) : Prop := ∀ b ∈ m.blocks, 0 < b.1 ∧ b.1 + b.2 < 2 ^ 64

instance (m : Mem) : Decidable (Sane m) := by unfold Sane; infer_instance

/-- An argument that is an address or a number of elements: an int from 0 to 2^64 - 1. -/
def IsWord : Arg → Prop
  | .int v => 0 ≤ v ∧ v < 2 ^ 64
  | _ => False

end Verif.Spec
