import Verif.Model.Limits

/-!
# What a call may do when there is not enough memory

Python's own list answers a request it cannot meet with an exception, and is what it was before. `Bounded` says that of a
call: it does what it does with unlimited memory, or it raises and the elements are the old ones.
-/

namespace Verif.Spec

/-- The outcome with the elements only. -/
def visible (o : Out Limits.St α) : Out (List Int) α :=
  match o with
  | .ok s a => .ok s.l a
  | .exc s e => .exc s.l e
  | .pending s a e => .pending s.l a e
  | .ub u => .ub u

/-- `o` is what happens with unlimited memory (`u`), or RuntimeError and the elements are still `old`. -/
def Bounded (old : List Int) (u : Out (List Int) α) (o : Out Limits.St α) : Prop :=
  visible o = u ∨ visible o = .exc old .runtimeError

/-- The machine grants every request for at most `b` bytes. -/
def GrantsUpTo (b : Nat) (m : Limits.Machine) : Prop := ∀ t n, n ≤ b → m t n = true

/-- The items an operand can give. -/
def sourceLength (own : Nat) : Src → Nat
  | .same v => v.length
  | .self => own
  | .list xs | .tuple xs | .seq xs | .seqNoLen xs | .iter xs _ => xs.length
  | .notIterable => 0

/-- The number of elements a call of a list with `n` elements needs room for; `hint` is the announced length of an iterator
among its arguments. -/
def roomFor (n : Nat) (hint : Nat) : Op → Nat
  | .append _ | .insert _ _ => n + 1
  | .extend s | .iadd s => n + max hint (sourceLength n s)
  | .set (.slice _) (.inr s) => n + sourceLength n s
  | .mul k | .imul k => n * k.toNat
  | .rmul (.int k) | .rmul (.index k) => n * k.toNat
  | .resize (.int k) => k.toNat
  | .copy => n
  | _ => 0

/-- The calls that only read, overwrite or remove elements. -/
def NeedsNoRoom : Op → Bool
  | .append _ | .insert _ _ | .extend _ | .iadd _ | .set (.slice _) _ | .mul _ | .imul _ | .rmul _ | .resize _ | .copy => false
  | _ => true

/-- The number of elements of the widest vector. -/
def maxElems (K : Kind) : Nat :=
  match K with
  | .i32 => 2305843009213693951     -- 2 ^ 61 - 1
  | .i64 => 1152921504606846975     -- 2 ^ 60 - 1

end Verif.Spec
