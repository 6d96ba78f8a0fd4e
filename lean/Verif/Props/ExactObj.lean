import Verif.Lemmas.ExactObj
import Verif.Props.ObjArrayList

/-! # C33: exactly the calls of ObjectArrayList that agree with a Python list -/

namespace Verif.Props

open ObjArray

/-- C33 (ObjectArrayList), one call. On every list of at most `PY_SSIZE_T_MAX` elements, with the client holding what it
passes in: the call has the result and leaves the contents of a Python list if, and only if, it is one of `Exact`. -/
theorem C33_ObjectArrayList_exact (cfg : Cfg) (H : OHost) (fuel : Nat) (hf : 0 < fuel) (ext : Obj → Nat) (s : OState)
    (op : OOp) (hc : Covered ext s.heap s.vec) (hn : (s.vec.length : Int) ≤ ssizeMax) (hh : Held ext s.heap op) :
    OAgrees (step cfg H fuel s op) (Spec.ostep H s.vec op) ↔ Exact H s.vec op :=
  (step_tight cfg H fuel hf hc hn op hh).2

/-- C33 (ObjectArrayList), histories. As long as no call stores an object without counting it (`Counted`), a history agrees
with a Python list call by call if, and only if, each of its calls is exact on the contents Python's list has by then. -/
theorem C33_ObjectArrayList_history_exact (cfg : Cfg) (H : OHost) (fuel : Nat) (hf : 0 < fuel) (ext : Obj → Nat)
    (s : OState) (ops : List OOp) (hc : Covered ext s.heap s.vec) (hn : (s.vec.length : Int) ≤ ssizeMax)
    (hlen : ∀ res ∈ Spec.orun H s.vec ops, (res.1.length : Int) ≤ ssizeMax)
    (hcnt : HistoryCounted H s.heap.imm s.vec ops) (hh : ∀ op ∈ ops, Held ext s.heap op) :
    OAgreesAll (run cfg H fuel s ops) (Spec.orun H s.vec ops) ↔ HistoryExact H s.vec ops :=
  run_tight cfg H fuel hf ops s hc hlen hn hcnt hh

/-- A history that agrees, with calls outside the domain of `C33_ObjectArrayList_history_partial`: `remove` of an object
that comes after others, a `pop` of the empty list, and `!=` with a tuple of another length. -/
example : HistoryExact exHost [4, 5] [.remove 5, .cmp .ne (.tuple [4, 4]), .pop none, .pop (some (.index 0)), .resize (.int 2)] := by
  refine ⟨.inl rfl, .inl (by decide), trivial, ⟨by decide, by decide⟩, trivial, trivial⟩

/-- A history that does not. -/
example : ¬ HistoryExact exHost [4, 5] [.append 6, .imul 2] := by
  rintro ⟨-, h, -⟩
  rcases h with h | h
  · exact absurd h (by decide)
  · exact absurd h (by decide)

end Verif.Props
