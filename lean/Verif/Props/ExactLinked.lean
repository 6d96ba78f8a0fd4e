import Verif.Lemmas.ExactLinked
import Verif.Props.LinkedList

/-!
# C24: exactly the calls of IntLinkedList that do what a Python list does

`LinkedList.Exact` (Spec/ExactLinked.lean) describes a set of calls by the contents and the arguments. The theorems say that a
call agrees with a Python list of 32-bit ints if and only if it is in this set, so every other call deviates.
-/

namespace Verif.Props

open LinkedList

/-- C24 for one call: on any 32-bit contents below the greatest length there is, with an operand that can exist, the call does
what a Python list does exactly when it is in `Exact`. -/
theorem C24_exact (cfg : Cfg) (strict : Bool) (s : LState Int) (op : Op) (hf : AllFits .i32 s.vals)
    (hn : (s.vals.length : Int) ≤ ssizeMax) (hp : Possible op) :
    Agrees (view (step cfg strict s op)) (Spec.step 32 s.vals op) ↔ Exact cfg strict s.vals op :=
  step_exact cfg strict s op hf hn hp

/-- C24 for histories: all outcomes are those of a Python list exactly when every call is in `Exact`, judged on the contents
a Python list has at that point. -/
theorem C24_history_exact (cfg : Cfg) (strict : Bool) (s : LState Int) (ops : List Op) (hf : AllFits .i32 s.vals)
    (hs : ArrayList.Short 32 s.vals ops) (hp : AllPossible ops) :
    AgreesAll (lviews (run cfg strict s ops)) (Spec.run 32 s.vals ops) ↔ HistoryExact cfg strict s.vals ops :=
  history_exact cfg strict ops s hf hs hp

/-- Whether a call of the linked list agrees does not depend on how the list came to its contents. -/
theorem C24_contents_decide (cfg : Cfg) (strict : Bool) (s t : LState Int) (op : Op) (hst : s.vals = t.vals)
    (hf : AllFits .i32 s.vals) (hn : (s.vals.length : Int) ≤ ssizeMax) (hp : Possible op) :
    Agrees (view (step cfg strict s op)) (Spec.step 32 s.vals op) ↔
      Agrees (view (step cfg strict t op)) (Spec.step 32 t.vals op) := by
  rw [C24_exact cfg strict s op hf hn hp, C24_exact cfg strict t op (hst ▸ hf) (hst ▸ hn) hp, hst]

private def py312 : Cfg := ⟨.v312, false, true, true, true⟩
private def py311 : Cfg := ⟨.le311, false, false, false, false⟩

/-- The hypotheses are met by a history that uses most of the interface, and it is in the domain. -/
example : let ops : List Op := [.append (.int (-5)), .extend (.iter [.int 7, .index 8] (some .runtimeError)),
      .set (.slice ⟨some (.int 0), some (.int 2), none⟩) (.inr (.list [.int 1, .int 2, .int 3])), .get (.idx (.int (-1))),
      .count (.int (2 ^ 40 + 9)), .cmp .lt (.list [.int 0]), .pop none, .pop (some (.int 9)), .imul 2, .reverse, .imul 0]
    AllFits .i32 [4, -1] ∧ ArrayList.Short 32 [4, -1] ops ∧ AllPossible ops ∧ HistoryExact py311 false [4, -1] ops ∧
      ¬ HistoryExact py311 true [4, -1] ops := by
  dsimp only
  decide

/-- `pop` of an element by its position never agrees; `pop` of the last one does. -/
example : ¬ Exact py311 false [4, 5] (.pop (some (.int 0))) ∧ Exact py311 false [4, 5] (.pop none) ∧
    Exact py311 false [4, 5] (.pop (some (.int 2))) := by
  decide

/-- Order against a list of another length: only when the shorter list is also the smaller one, whatever the operator. -/
example : Exact py311 false [4] (.cmp .lt (.list [.int 4, .int 5])) ∧ Exact py311 false [4] (.cmp .le (.list [.int 5, .int 5])) ∧
    ¬ Exact py311 false [4] (.cmp .gt (.list [.int 5, .int 5])) ∧ ¬ Exact py311 false [4] (.cmp .lt (.list [.int 3, .int 5])) ∧
    Exact py311 false [4] (.cmp .gt (.list [.int 3, .int 5])) := by
  decide

/-- From 3.12 on a list with a negative element is not equal to itself. -/
example : Exact py312 false [4, 0] (.cmp .eq .self) ∧ ¬ Exact py312 false [4, -1] (.cmp .eq .self) ∧
    Exact py312 false [4, -1] (.cmp .eq (.same [4, 2])) ∧ Exact py312 false [-2 ^ 31] (.cmp .eq .self) := by
  decide

end Verif.Props
