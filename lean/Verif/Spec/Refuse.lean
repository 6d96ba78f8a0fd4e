import Verif.Model.Refuse

/-!
# What a call on a list of objects may do when there is not enough memory

A Python list answers a request it cannot meet with an exception, is what it was before, and holds the references it held
before. `Spared` says that of a call. The machines, and which calls ask for room at all.
-/

namespace Verif.Spec

open Verif.Refuse

/-- The outcome without the memory of the machine. -/
def shown {σ ρ α : Type} : Out (σ × ρ) α → Out σ α
  | .ok s a => .ok s.1 a
  | .exc s e => .exc s.1 e
  | .pending s a e => .pending s.1 a e
  | .ub u => .ub u

/-- `o` is what happens with unlimited memory (`u`), or RuntimeError, and contents and counts are the `old` ones. -/
def Spared {σ ρ α : Type} (old : σ) (u : Out σ α) (o : Out (σ × ρ) α) : Prop :=
  shown o = u ∨ shown o = .exc old .runtimeError

/-- The calls that survive a refusal unharmed: all but `extend`, `+=`, `*=` and slice assignment. -/
def Sparing : OOp → Bool
  | .extend _ | .iadd _ | .imul _ | .setSlice _ _ => false
  | _ => true

/-- The machine grants every request for at most `b` bytes. -/
def GrantsBytes (b : Nat) (m : Arr.Machine) : Prop := ∀ t n, n ≤ b → m t n = true

/-- The items an operand can give. -/
def givenBy (own : Nat) : OSrc → Nat
  | .same v => v.length
  | .self => own
  | .list xs | .tuple xs | .seq xs | .seqNoLen xs | .iter xs _ => xs.length
  | .notIterable => 0

/-- The number of elements a call of a list with `n` elements needs room for; `hint` is the announced length of an iterator
among its arguments. -/
def spaceFor (n : Nat) (hint : Nat) : OOp → Nat
  | .append _ | .insert _ _ => n + 1
  | .extend s | .iadd s => n + max hint (givenBy n s)
  | .setSlice _ s => n + givenBy n s
  | .mul k | .imul k => n * k.toNat
  | .rmul (.int k) | .rmul (.index k) => n * k.toNat
  | .resize (.int k) => k.toNat
  | .copy => n
  | _ => 0

/-- `h'` counts, compared with `h`, one reference more for each occurrence in `lost`, for every mortal object. -/
def Leaked (lost : List Obj) (h h' : Heap) : Prop :=
  h'.imm = h.imm ∧ ∀ o, h.imm o = false → h'.rc o = h.rc o + lost.count o

/-- A history of calls: the state afterwards, `none` after undefined behaviour. -/
def history {σ τ α : Type} (step : σ → τ → Out σ α) (s : σ) : List τ → Option σ
  | [] => some s
  | c :: cs =>
    match step s c with
    | .ok s' _ | .exc s' _ | .pending s' _ _ => history step s' cs
    | .ub _ => none

end Verif.Spec
