import Verif.Lemmas.ExactSlice

/-!
# C03: exactly the calls of IntArrayList / BigIntArrayList that do what a Python list does

`Exact` (Spec/Exact.lean) describes a set of calls by the contents and the arguments. The theorems say that a call agrees
with a Python list of bounded ints if and only if it is in this set, so every other call deviates.
-/

namespace Verif.Props

open ArrayList

/-- C03 for one call: on contents of the element type, below the greatest length there is, with an operand that can exist, the
call does what a Python list does exactly when it is in `Exact`. -/
theorem C03_exact (cfg : Cfg) (K : Kind) (l : List Int) (op : Op) (hf : AllFits K l) (hn : (l.length : Int) ≤ ssizeMax)
    (hp : Possible K op) : Agrees (step cfg K l op) (Spec.step K.bits l op) ↔ Exact cfg K l op :=
  step_exact cfg K l op hf hn hp

/-- C03 for histories: all outcomes are those of a Python list exactly when every call is in `Exact`, judged on the contents
a Python list has at that point. -/
theorem C03_history_exact (cfg : Cfg) (K : Kind) (l : List Int) (ops : List Op) (hf : AllFits K l)
    (hs : Short K.bits l ops) (hp : AllPossible K ops) :
    AgreesAll (run cfg K l ops) (Spec.run K.bits l ops) ↔ HistoryExact cfg K l ops :=
  history_exact cfg K ops l hf hs hp

/-- The first call of a history that is not in `Exact` is where it leaves the behaviour of a Python list: everything before
agrees and that call does not. -/
theorem C03_first_deviation (cfg : Cfg) (K : Kind) (l : List Int) (pre : List Op) (op : Op) (hf : AllFits K l)
    (hs : Short K.bits l (pre ++ [op])) (hp : AllPossible K (pre ++ [op])) (hpre : HistoryExact cfg K l pre)
    (hop : ¬ HistoryExact cfg K l (pre ++ [op])) :
    AgreesAll (run cfg K l pre) (Spec.run K.bits l pre) ∧
    ¬ AgreesAll (run cfg K l (pre ++ [op])) (Spec.run K.bits l (pre ++ [op])) := by
  refine ⟨(C03_history_exact cfg K l pre hf ?_ fun o ho => hp o (List.mem_append_left _ ho)).2 hpre,
    fun h => hop ((C03_history_exact cfg K l _ hf hs hp).1 h)⟩
  clear hp hpre hop hf
  induction pre generalizing l with
  | nil => exact hs.1
  | cons o pre ih => exact ⟨hs.1, ih _ hs.2⟩

private def py312 : Cfg := ⟨.v312, false, true, true, true⟩
private def py311 : Cfg := ⟨.le311, false, false, false, false⟩

/-- The hypotheses are met by a history that uses most of the interface, and it is in the domain. -/
example : let ops : List Op := [.append (.int (-5)), .extend (.iter [.int 7, .index 8] (some .runtimeError)),
      .set (.slice ⟨some (.int 0), some (.int 2), none⟩) (.inr (.list [.int 1, .int 2, .int 3])), .get (.idx (.int (-1))),
      .count (.int (2 ^ 40 + 9)), .cmp .lt (.list [.int 0, .int (2 ^ 63)]), .pop none, .reverse, .imul 0]
    AllFits .i32 [4, -1] ∧ Short 32 [4, -1] ops ∧ AllPossible .i32 ops ∧ HistoryExact py311 .i32 [4, -1] ops := by
  dsimp only
  decide

/-- The same history with a comparison that has to look at the wide int is not. -/
example : let ops : List Op := [.append (.int (-5)), .cmp .lt (.list [.int 4, .int (2 ^ 63)])]
    AllFits .i32 [4, -1] ∧ Short 32 [4, -1] ops ∧ AllPossible .i32 ops ∧ HistoryExact py311 .i32 [4, -1] (ops.take 1) ∧
      ¬ HistoryExact py311 .i32 [4, -1] ops := by
  dsimp only
  decide

/-- Rare agreements the domain covers: a slice assignment that raises where the element overwritten is -1 anyway. -/
example : Exact py312 .i32 [5, -1, 6] (.set (.slice ⟨some (.int 1), none, none⟩) (.inr (.list [.other, .int 9]))) ∧
    ¬ Exact py312 .i32 [5, -2, 6] (.set (.slice ⟨some (.int 1), none, none⟩) (.inr (.list [.other, .int 9]))) := by
  decide

/-- Reading from 3.12 on: zero and negative elements are no normal ints. -/
example : Exact py312 .i32 [5, 0] (.get (.idx (.int 0))) ∧ ¬ Exact py312 .i32 [5, 0] (.get (.idx (.int 1))) ∧
    Exact py312 .i64 [5, 0] (.get (.idx (.int 1))) := by
  decide

end Verif.Props
