import Verif.Model.Store

/-!
# Specification for C22 and C23: which events concern a list, and how much room a list needs
-/

namespace Verif.Spec

open Verif.Store

/-- The growth policy of `std::vector` delivers at least what is asked for. -/
def Grows (grow : Nat → Nat → Nat) : Prop := ∀ cap need, need ≤ grow cap need

/-- The event is an operation on the list `c`, or writes through one of its memoryviews. -/
def Touches (c : Nat) (w : World) : Ev → Prop
  | .create o _ _ => o = c
  | .call o _ _ => o = c
  | .callOn o _ _ => o = c
  | .copy _ d => d = c
  | .drop o => o = c
  | .write id _ _ => (w.views id).map (·.of) = some c
  | _ => False

instance (c : Nat) (w : World) (e : Ev) : Decidable (Touches c w e) := by
  cases e <;> unfold Touches <;> infer_instance

/-- No event of the history is an operation on `c`. -/
def Untouched (cfg : Cfg) (K : Kind) (grow : Nat → Nat → Nat) (c : Nat) (w : World) : List Ev → Prop
  | [] => True
  | e :: es =>
    ¬ Touches c w e ∧
    match (step cfg K grow w e).state? with
    | none => True
    | some w' => Untouched cfg K grow c w' es

instance decUntouched (cfg : Cfg) (K : Kind) (grow : Nat → Nat → Nat) (c : Nat) :
    (es : List Ev) → (w : World) → Decidable (Untouched cfg K grow c w es)
  | [], _ => isTrue trivial
  | e :: es, w => by
    unfold Untouched
    have := decUntouched cfg K grow c es
    cases (step cfg K grow w e).state? <;> infer_instance

/-- Elements an operand promises to add to the list `o`. -/
def promised (o : Nat) : Ev → Nat
  | .call p op hint => if p = o then reserved op hint else 0
  | _ => 0

/-- The list `o` is not dropped, never longer than `n`, and no operand promises to make it longer. -/
def Within (cfg : Cfg) (K : Kind) (grow : Nat → Nat → Nat) (o n : Nat) (w : World) : List Ev → Prop
  | [] => ∀ l ∈ contents w o, l.length ≤ n
  | e :: es =>
    e ≠ .drop o ∧ (∀ l ∈ contents w o, l.length + promised o e ≤ n) ∧
    match (step cfg K grow w e).state? with
    | none => True
    | some w' => Within cfg K grow o n w' es

instance decWithin (cfg : Cfg) (K : Kind) (grow : Nat → Nat → Nat) (o n : Nat) :
    (es : List Ev) → (w : World) → Decidable (Within cfg K grow o n w es)
  | [], w => by unfold Within; infer_instance
  | e :: es, w => by
    unfold Within
    have := decWithin cfg K grow o n es
    cases (step cfg K grow w e).state? <;> infer_instance

/-- An outcome of a call on a list, seen with the new contents of the list `c`. -/
def seen (c : Nat) : Out World Ans → Out (Option (List Int)) Ans
  | .ok w a => .ok (contents w c) a
  | .exc w e => .exc (contents w c) e
  | .pending w a e => .pending (contents w c) a e
  | .ub u => .ub u

/-- The same for a call on a list alone. -/
def alone : LOut → Out (Option (List Int)) Ans
  | .ok l r => .ok (some l) (.ret r)
  | .exc l e => .exc (some l) e
  | .pending l r e => .pending (some l) (.ret r) e
  | .ub u => .ub u

end Verif.Spec
