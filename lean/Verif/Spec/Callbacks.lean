import Verif.Spec.Sort
import Verif.Model.ListSort

/-!
# What callers of `sort` know about their callbacks

`Caller` and `Call` only collect the callbacks (key function, comparison, allocator); nothing here mentions
the sorting code.
-/

namespace Verif

open Verif.Spec

variable {σ κ ν : Type}

namespace CPySort

/-- The order of the result: `lt`, or the opposite order for `reverse=True`. -/
def dir (lt : ν → ν → Bool) (rev : Bool) : ν → ν → Bool := if rev then fun x y => lt y x else lt

/-- `e` was raised by a callback, and `env` is the state that callback left: no other one ran after it. -/
def CallerRaised (c : Caller σ κ ν) (env : σ) (e : Exc) : Prop :=
  (∃ s0 x, c.key s0 x = (.error e, env)) ∨ (∃ s0 x y, c.lt s0 x y = (.error e, env)) ∨
    (e = .memoryError ∧ ∃ s0 n, c.malloc s0 n = (false, env))

/-- Only raising callbacks turn `flag` on. -/
structure CallFlags (c : Caller σ κ ν) (flag : σ → Bool) : Prop where
  key : ∀ s x k s', c.key s x = (.ok k, s') → flag s' = true → flag s = true
  lt : ∀ s x y b s', c.lt s x y = (.ok b, s') → flag s' = true → flag s = true
  malloc : ∀ s n s', c.malloc s n = (true, s') → flag s' = true → flag s = true

/-- The callbacks behave: keys and comparisons are functions, the comparison is a strict weak order. -/
structure Ordered (c : Caller σ κ ν) (kf : ν → κ) (less : κ → κ → Bool) : Prop where
  key : ∀ s x, (c.key s x).1 = .ok (kf x)
  lt : ∀ s x y, (c.lt s x y).1 = .ok (less x y)
  weak : StrictWeak less

/-- The allocator never fails. -/
def MemOk (c : Caller σ κ ν) : Prop := ∀ s n, (c.malloc s n).1 = true

end CPySort

namespace ListSort

open CPySort

/-- See `CallerRaised`. Without a key function only comparison and allocator are called. -/
def Call.Raised : Call σ κ ν → σ → Exc → Prop
  | .keyed c, env, e => CallerRaised c env e
  | .plain c, env, e => (∃ s0 x y, c.lt s0 x y = (.error e, env)) ∨
      (e = .memoryError ∧ ∃ s0 n, c.malloc s0 n = (false, env))

/-- See `CallFlags`. -/
def Call.Flags : Call σ κ ν → (σ → Bool) → Prop
  | .keyed c, flag => CallFlags c flag
  | .plain c, flag => (∀ s x y b s', c.lt s x y = (.ok b, s') → flag s' = true → flag s = true) ∧
      ∀ s n s', c.malloc s n = (true, s') → flag s' = true → flag s = true

/-- The callbacks amount to the strict weak order `lt` on elements. -/
def Call.Order : Call σ κ ν → (ν → ν → Bool) → Prop
  | .keyed c, lt => ∃ kf ltk, Ordered c kf ltk ∧ lt = fun x y => ltk (kf x) (kf y)
  | .plain c, lt => StrictWeak lt ∧ ∀ s x y, (c.lt s x y).1 = .ok (lt x y)

/-- The allocator never fails. -/
def Call.MemOk (c : Call σ κ ν) : Prop := ∀ s n, (c.malloc s n).1 = true

/-- Values an int list can send through its objects: the object is the interpreter's int for the value, and
the value comes back. -/
def Sendable (K : Kind) (py : PyVer) (v : Int) : Prop :=
  K = .i64 ∨ (py = .le311 ∧ -(2 ^ 30) < v ∧ v < 2 ^ 30) ∨ (0 < v ∧ v < 2 ^ 30)

/-- What `v` comes back as: unchanged for 64-bit elements; its low 30 bits up to 3.11; from 3.12 on negative
values (but -2^31) come back as -1. -/
def sent (K : Kind) (py : PyVer) (v : Int) : Int :=
  match K, py with
  | .i64, _ => v
  | .i32, .le311 => v.tmod (2 ^ 30)
  | .i32, _ => if v < 0 ∧ v ≠ -(2 ^ 31) then -1 else v

/-- The values whose way back raises OverflowError. -/
def Lost (K : Kind) (py : PyVer) (v : Int) : Bool :=
  K = .i32 && py ≠ .le311 && decide (v < 0 ∧ v ≠ -(2 ^ 31))

instance (K : Kind) (py : PyVer) (v : Int) : Decidable (Sendable K py v) := by unfold Sendable; infer_instance

end ListSort

end Verif
