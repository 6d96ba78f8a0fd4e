import Verif.VocabUnsafe
import Verif.VocabVec

/-!
# Specification of a vector in memory
-/

namespace Verif.Spec

/-- Unsigned little-endian number. -/
def leNat : List Byte → Nat
  | [] => 0
  | b :: bs => b.val + 256 * leNat bs

/-- Signed little-endian number (two's complement). -/
def leInt (bs : List Byte) : Int :=
  if 2 * leNat bs < 256 ^ bs.length then leNat bs else (leNat bs : Int) - 256 ^ bs.length

/-- Lane `i` of the vector stored at `p`. -/
def laneAt (byte : Nat → Byte) (f : VecFn) (p i : Nat) : Int :=
  leInt ((List.range f.lane).map fun j => byte (p + i * f.lane + j))

/-- The element type of the lanes represents the value. -/
def LaneFits (f : VecFn) (v : Int) : Prop := -(256 ^ f.lane : Int) ≤ 2 * v ∧ 2 * v < 256 ^ f.lane

end Verif.Spec
