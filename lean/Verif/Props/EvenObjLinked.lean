import Verif.Lemmas.EvenObjLinked
import Verif.Props.ObjArrayList

/-! # C29: exactly the calls of ObjectLinkedList after which the reference counts are right -/

namespace Verif.Props

open ObjLinked

/-- C29 (ObjectLinkedList), exactly. On every list of at most `PY_SSIZE_T_MAX` elements of which every object is counted
exactly as often as it is held, with the client holding what it passes in and a slice assignment not making more elements
than that: a call, whatever it answers or raises, touches nothing freed and no node that is not there, and leaves every
object counted exactly as often as it is held, if, and only if, it is one of `Keeps`. -/
theorem C29_ObjectLinkedList_exact (H : OHost) (strict : Bool) (ext : Obj → Nat) (s : OLState) (op : OOp)
    (hb : Balanced ext s.heap (vec s)) (hn : ((vec s).length : Int) ≤ ssizeMax) (hbd : Bounded (vec s) op)
    (hh : Held ext s.heap op) :
    Even ext (view (step H strict s op)) ↔ Keeps strict s.heap.imm (vec s) op :=
  step_even H strict hb hn op hbd hh

/-- `l.pop()` is right, `l.pop(0)` reads a node that is gone. -/
example : Keeps false (fun _ => false) [4, 5] (.pop none) ∧ ¬ Keeps false (fun _ => false) [4, 5] (.pop (some (.int 0))) :=
  ⟨fun v h => (nomatch h), fun h => absurd (h 0 rfl) (by decide)⟩

/-- `l[0:2] = x`: any `x` is counted right. -/
example (src : OSrc) (m : Nat) (hm : sizeOf [4, 5, 6] src = some m) :
    Keeps false (fun _ => false) [4, 5, 6] (.setSlice ⟨some (.int 0), some (.int 2), none⟩ src) := by
  intro i j k m' hf hm'
  cases hf
  have hpos : (Spec.positions 3 (some 0) (some 2) 1).length = 2 := by decide
  have hfirst : first 3 (some 0) 1 = 0 := by decide
  show SliceKeeps 3 m' (some 0) (some 2) 1
  unfold SliceKeeps
  simp only [hpos, hfirst]
  exact ⟨fun _ => by omega, fun t _ => by omega⟩

/-- `l[::2] = [7, 7, 7]` on three elements: the list grows to four, and the third object goes to its position 4. -/
example : ¬ Keeps false (fun _ => false) [4, 5, 6] (.setSlice ⟨none, none, some (.int 2)⟩ (.list [7, 7, 7])) := by
  intro h
  have := h none none 2 3 rfl rfl
  have := this.2 2 (by decide)
  revert this
  decide

/-- `l[::-1] = []` would remove three nodes from the last one on. -/
example : ¬ Keeps false (fun _ => false) [4, 5, 6] (.setSlice ⟨none, none, some (.int (-1))⟩ (.list [])) := by
  intro h
  have := (h none none (-1) 0 rfl rfl).1 (by decide)
  revert this
  decide

end Verif.Props
