import Verif.Lemmas.EvenObj
import Verif.Props.ObjArrayList

/-! # C29: exactly the calls of ObjectArrayList after which the reference counts are right -/

namespace Verif.Props

open ObjArray

/-- C29 (ObjectArrayList), exactly. On every list of at most `PY_SSIZE_T_MAX` elements of which every object is counted
exactly as often as it is held, with the client holding what it passes in: a call, whatever it answers or raises, touches
nothing freed and leaves every object counted exactly as often as it is held if, and only if, it is one of `Keeps`. -/
theorem C29_ObjectArrayList_exact (cfg : Cfg) (H : OHost) (fuel : Nat) (hf : 0 < fuel) (ext : Obj → Nat) (s : OState)
    (op : OOp) (hb : Balanced ext s.heap s.vec) (hn : (s.vec.length : Int) ≤ ssizeMax) (hh : Held ext s.heap op) :
    Even ext (step cfg H fuel s op) ↔ Keeps H s.heap.imm s.vec op :=
  step_even cfg H fuel hf hb hn op hh

/-- Replacing an element is right exactly if the element replaced is immortal. -/
example : ¬ Keeps exHost (fun _ => false) [4, 5] (.setItem (.int 1) 6) ∧
    Keeps exHost (fun o => o == 5) [4, 5] (.setItem (.int 1) 6) :=
  ⟨fun h => absurd (h.2 1 1 5 rfl rfl rfl) (by decide), by simp, fun i p old h1 h2 h3 => by
    cases h1; cases h2; cases h3; rfl⟩

/-- A slice may be given a shorter list, any tuple, and a longer list only of objects that need not be counted. -/
example : Keeps exHost (fun _ => false) [4, 5, 6] (.setSlice ⟨some (.int 0), some (.int 2), none⟩ (.list [7])) ∧
    Keeps exHost (fun _ => false) [4, 5, 6] (.setSlice ⟨some (.int 0), some (.int 2), none⟩ (.tuple [7, 7, 7])) ∧
    ¬ Keeps exHost (fun _ => false) [4, 5, 6] (.setSlice ⟨some (.int 0), some (.int 2), none⟩ (.list [7, 7, 7])) := by
  refine ⟨.inr fun o h => absurd h (show ¬ o ∈ [] from List.not_mem_nil), trivial, ?_⟩
  rintro (h | h)
  · exact h rfl
  · exact absurd (h 7 (by decide)) (by decide)

/-- `l[1:2] = x` with a sequence `x` without length gives up the element before the slice as well, with the counts right;
`l[0:1] = x` does not even find one. -/
example : Keeps exHost (fun _ => false) [4, 5, 6] (.setSlice ⟨some (.int 1), some (.int 2), none⟩ (.seqNoLen [])) ∧
    ¬ Keeps exHost (fun _ => false) [4, 5, 6] (.setSlice ⟨some (.int 0), some (.int 1), none⟩ (.seqNoLen [])) := by
  refine ⟨.inr (by decide), ?_⟩
  rintro (h | h)
  · exact h rfl
  · exact absurd h (by decide)

end Verif.Props
