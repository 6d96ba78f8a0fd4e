import Verif.Lemmas.ExactObjLinked
import Verif.Props.ObjLinkedList

/-! # C33: exactly the calls of ObjectLinkedList that agree with a Python list -/

namespace Verif.Props

open ObjLinked

/-- C33 (ObjectLinkedList), one call. On every list of at most `PY_SSIZE_T_MAX` elements, with the client holding what it
passes in: a call of a method of the class has the result and leaves the contents of a Python list if, and only if, it is one
of `Exact`. -/
theorem C33_ObjectLinkedList_exact (H : OHost) (strict : Bool) (ext : Obj → Nat) (s : OLState) (op : OOp)
    (hc : Covered ext s.heap (vec s)) (hn : ((vec s).length : Int) ≤ ssizeMax) (hop : Covers op)
    (hh : Held ext s.heap op) :
    OAgrees (view (step H strict s op)) (Spec.ostep H (vec s) op) ↔ Exact H strict (vec s) op :=
  ⟨(step_tight H strict hc hn op hop hh).2, fun h => Does.agrees ((step_tight H strict hc hn op hop hh).1 h)⟩

/-- C33 (ObjectLinkedList), histories. A history of such calls agrees with a Python list call by call if, and only if, each
of its calls is exact on the contents Python's list has by then. -/
theorem C33_ObjectLinkedList_history_exact (H : OHost) (strict : Bool) (ext : Obj → Nat) (s : OLState) (ops : List OOp)
    (hc : Covered ext s.heap (vec s)) (hn : ((vec s).length : Int) ≤ ssizeMax)
    (hlen : ∀ res ∈ Spec.orun H (vec s) ops, (res.1.length : Int) ≤ ssizeMax) (hcov : ∀ op ∈ ops, Covers op)
    (hh : ∀ op ∈ ops, Held ext s.heap op) :
    OAgreesAll ((run H strict s ops).map view) (Spec.orun H (vec s) ops) ↔ HistoryExact H strict (vec s) ops :=
  run_tight H strict ops s hc hlen hn hcov hh

/-- A history that agrees: `l[2:0] = [4]` pushes the items in at 0, which shows nowhere before 2 in a list of equal
elements. -/
example : HistoryExact exHost true [4, 4, 4] [.setSlice ⟨some (.int 2), some (.int 0), none⟩ (.list [4]), .imul 2,
    .remove 4, .pop (some (.int 9))] :=
  ⟨.inr ⟨rfl, .inr (.inr rfl)⟩, trivial, .inl rfl, ⟨.inl (by decide), fun v h => by cases h; rfl⟩, trivial⟩

/-- A history that does not: the same slice of a list of different elements. -/
example : ¬ HistoryExact exHost true [4, 5, 6] [.setSlice ⟨some (.int 2), some (.int 0), none⟩ (.list [4])] := by
  rintro ⟨h, -⟩
  rcases h with h | ⟨-, h | h | h⟩ <;> exact absurd h (by decide)

/-- `l[2:] = l` of a list that repeats itself every two elements, `l[2:1] = l` of equal elements. -/
example : HistoryExact exHost true [4, 5, 4, 5] [.setSlice ⟨some (.int 2), none, none⟩ .self] ∧
    HistoryExact exHost true [4, 4, 4] [.setSlice ⟨some (.int 2), some (.int 1), none⟩ .self] := by
  refine ⟨⟨⟨fun p hp => ?_, fun h => absurd h (by decide)⟩, trivial⟩, ⟨⟨fun p hp => ?_, fun _ p hp => ?_⟩, trivial⟩⟩
  · obtain rfl | rfl : p = 0 ∨ p = 1 := by have : p + 2 < 4 := hp; omega
    · rfl
    · rfl
  · obtain rfl : p = 0 := by have : p + 2 < 3 := hp; omega
    rfl
  · obtain rfl : p = 0 := by have : p + 1 < 2 := hp; omega
    rfl

/-- `l[1:] = l` of two different elements is not one of them. -/
example : ¬ HistoryExact exHost true [4, 5] [.setSlice ⟨some (.int 1), none, none⟩ .self] := by
  rintro ⟨⟨h, -⟩, -⟩
  exact absurd (h 0 (by decide)) (by decide)

end Verif.Props
