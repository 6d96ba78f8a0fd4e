import Verif.Lemmas.StoreExact
import Verif.Props.Store

/-!
# C22, exactly: which histories leave a memoryview of an int array list readable
-/

namespace Verif.Props

open Verif.Spec
open Verif.Store

variable {cfg : Cfg} {K : Kind} {grow : Nat → Nat → Nat}

/-- A new view of a non-empty list points into the block of the list. -/
private theorem view_start {w w1 : World} {o id i : Nat} {l : List Int} (h : WF w) (hl : contents w o = some l)
    (hi : i < l.length) (hv : step cfg K grow w (.view o id) = .ok w1 .none) :
    ∃ b, w1.views id = some ⟨o, some b, l.length⟩ ∧ InBlock o b (capacity w o) w1 := by
  simp only [step] at hv
  cases ho : w.objs o with
  | none => simp only [ho] at hv; cases hv
  | some v =>
    cases hid : w.views id with
    | some _ => simp only [ho, hid] at hv; cases hv
    | none =>
      simp only [ho, hid] at hv
      cases hv
      obtain ⟨blk, m⟩ := v
      cases blk with
      | none =>
        rw [contents_nul ho] at hl
        cases hl
        simp at hi
      | some b =>
        obtain ⟨cs, hcs, hle⟩ := h.vec o b m ho
        have hlen := contents_len hl ho h
        refine ⟨b, by rw [hlen]; exact upd_same _ _ _, m, cs, ho, hcs, ?_⟩
        simp only [capacity, ho, Option.bind_some, cells, hcs, Option.elim_some]

/-- Take a memoryview of a non-empty list, made after any history, and any later history that does not release it. There
is a number of elements, at least those the list has now, such that: if the list is not dropped, never exceeds that number
and is never extended by an operand promising more, then every item of the view is read, and is the current item of the
list where it still has one; and otherwise reading any item of the view is a use after free. -/
theorem C22_exact {es : List Ev} {w w1 : World} {o id : Nat} {l : List Int}
    (hr : run cfg K grow start es = some w) (hl : contents w o = some l)
    (hv : step cfg K grow w (.view o id) = .ok w1 .none) :
    ∃ n, l.length ≤ n ∧ ∀ es' w', run cfg K grow w1 es' = some w' → .release id ∉ es' → ∀ i, i < l.length →
      (Within cfg K grow o n w1 es' →
        ∃ v l', step cfg K grow w' (.read id i) = .ok w' (.int v) ∧ contents w' o = some l' ∧
          (i < l'.length → l'[i]? = some v)) ∧
      (¬ Within cfg K grow o n w1 es' → step cfg K grow w' (.read id i) = .ub .useAfterFree) := by
  have h := run_wf es _ _ wf_start hr
  have h1 : WF w1 := step_wf h (by rw [hv]; rfl)
  refine ⟨capacity w o, capacity_le hl, ?_⟩
  intro es' w' hr' hrel i hi
  obtain ⟨b, hid, hb⟩ := view_start h hl hi hv
  have hview := view_run es' w1 w' h1 hid hrel hr'
  have hcap := capacity_le hl
  rcases block_run es' w1 w' h1 hb hr' with ⟨hw, m, cs, ho, hm, hn⟩ | ⟨hw, hg⟩
  · refine ⟨fun _ => ?_, fun c => absurd hw c⟩
    have hic : i < cs.length := by omega
    refine ⟨cs[i], cs.take m, ?_, contents_of ho hm, ?_⟩
    · simp only [step, hview, if_pos hi, hm, List.getElem?_eq_getElem hic]
    · intro hlt
      rw [List.length_take] at hlt
      rw [List.getElem?_take_of_lt (by omega), List.getElem?_eq_getElem hic]
  · refine ⟨fun c => absurd c hw, fun _ => ?_⟩
    simp only [step, hview, if_pos hi, hg.1]

/-- The same for writing: it stores the item in the list if the list stayed where it was, and is otherwise a write to freed
memory. -/
theorem C22_write_exact {es : List Ev} {w w1 : World} {o id : Nat} {l : List Int}
    (hr : run cfg K grow start es = some w) (hl : contents w o = some l)
    (hv : step cfg K grow w (.view o id) = .ok w1 .none) :
    ∃ n, l.length ≤ n ∧ ∀ es' w', run cfg K grow w1 es' = some w' → .release id ∉ es' → ∀ i, i < l.length → ∀ a,
      (Within cfg K grow o n w1 es' →
        ∃ w2 l', step cfg K grow w' (.write id i a) = .ok w2 .none ∧ contents w' o = some l' ∧
          contents w2 o = some (l'.set i a)) ∧
      (¬ Within cfg K grow o n w1 es' → step cfg K grow w' (.write id i a) = .ub .useAfterFree) := by
  have h := run_wf es _ _ wf_start hr
  have h1 : WF w1 := step_wf h (by rw [hv]; rfl)
  refine ⟨capacity w o, capacity_le hl, ?_⟩
  intro es' w' hr' hrel i hi a
  obtain ⟨b, hid, hb⟩ := view_start h hl hi hv
  have hview := view_run es' w1 w' h1 hid hrel hr'
  have hcap := capacity_le hl
  rcases block_run es' w1 w' h1 hb hr' with ⟨hw, m, cs, ho, hm, hn⟩ | ⟨hw, hg⟩
  · refine ⟨fun _ => ?_, fun c => absurd hw c⟩
    have hic : i < cs.length := by omega
    refine ⟨_, cs.take m, by simp only [step, hview, if_pos hi, hm, if_pos hic]; rfl, contents_of ho hm, ?_⟩
    have hm2 : upd w'.mem b (some (cs.set i a)) b = some (cs.set i a) := upd_same _ _ _
    have := contents_of (w := { w' with mem := upd w'.mem b (some (cs.set i a)) }) ho hm2
    rw [this, List.take_set]
  · refine ⟨fun c => absurd c hw, fun _ => ?_⟩
    simp only [step, hview, if_pos hi, hg.1]

/-! ### The hypotheses are satisfiable, and both cases occur -/

section examples

private def bare : Cfg := ⟨.v312, false, false, false, false⟩
private def twice (cap need : Nat) : Nat := max (2 * cap) need
private def origin : List Ev := [.create 0 (some (.inr (.list [.int 4, .int 5, .int 6]))) 4]
private def before : World := (run bare .i32 twice start origin).getD start
private def viewed : World := (run bare .i32 twice start (origin ++ [.view 0 9])).getD start

example : contents before 0 = some [4, 5, 6] ∧ capacity before 0 = 4 := by decide

example : Within bare .i32 twice 0 4 viewed [.call 0 (.append (.int 7)) 0, .call 0 (.pop none) 0, .copy 0 1, .drop 1] := by decide
example : ¬ Within bare .i32 twice 0 4 viewed [.call 0 (.append (.int 7)) 0, .call 0 (.append (.int 7)) 0] := by decide
example : ¬ Within bare .i32 twice 0 4 viewed [.drop 0] := by decide
/-- A promise is enough. -/
example : ¬ Within bare .i32 twice 0 4 viewed [.call 0 (.extend (.iter [] none)) 2] := by decide

/-- The history that moves the list runs. -/
example : ((run bare .i32 twice viewed [.call 0 (.append (.int 7)) 0, .call 0 (.append (.int 7)) 0]).map
    (fun w => contents w 0)) = some (some [4, 5, 6, 7, 7]) := by decide

end examples

end Verif.Props
