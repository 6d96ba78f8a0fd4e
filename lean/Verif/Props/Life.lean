import Verif.Lemmas.LifeNested

/-!
# C54: lists live as long as they are referenced, and give everything back once
-/

namespace Verif.Props

open Verif.Life Verif.Spec.Life

/-- A history in which every class takes part: an object, lists of it, a copy, elements moved about, names dropped. -/
def lifeHistory : List Ev :=
  [.new .other, .create .objArray [.obj 0, .obj 0] false, .create .objLinked [.obj 1, .obj 0] false, .copy 2,
   .create .intLinked [.int 5, .int 6] true, .drop 0, .pop 1, .append 1 (.obj 0), .drop 1, .get 3 0, .clear 2, .drop 2,
   .new .intArray, .init 5 [.int 7] false, .len 5]

theorem lifeHistory_never : Never sharing 20 empty lifeHistory ∧ Never again 20 empty lifeHistory ∧ (∀ e ∈ lifeHistory, Ev.bare e = false) ∧
    lifeHistory.length < 20 := by
  refine ⟨?_, ?_, by decide, by decide⟩ <;>
  · unfold lifeHistory
    repeat' (first | trivial | (refine ⟨rfl, fun w' h => ?_⟩; cases h))

/-- **C54 (references lead to objects).** Whatever the history, as long as no list of objects is constructed from
another list of its own class (`C54_same_class_negation`): nothing that was destroyed is ever touched, every object
Python code has a reference to lives, and so does every element of a list that lives. -/
theorem C54_alive_partial (D : Nat) (evs : List Ev) (hs : Never sharing D empty evs) :
    run D empty evs ≠ .error .useAfterFree ∧
    ∀ w, run D empty evs = .ok w → (∀ x ∈ w.names, Lives w x) ∧ ∀ o x, .obj x ∈ elems w o → Lives w x := by
  have h := run_fine evs empty [] 0 inv_empty hs
  constructor
  · intro e
    rw [e] at h
    rcases h with ⟨h, _⟩ | ⟨h, _⟩ <;> cases h
  · intro w e
    rw [e] at h
    obtain ⟨⟨L, B, iv, _⟩, _, _⟩ := h
    refine ⟨fun x hx => iv.lives (by simp [hx]), fun o x hx => ?_⟩
    match hc : w.heap.cells o with
    | none => simp [elems, hc] at hx
    | some c =>
      rw [elems_eq, itemsAt_some hc] at hx
      exact iv.held hc (List.mem_filterMap.2 ⟨_, hx, rfl⟩)

/-- **C54 (no crash).** If moreover linked lists are not left uninitialised (`C54_uninitialised_negation`) and the
stack has room for one frame per event (`C54_depth_negation`), every event of the history returns. -/
theorem C54_no_crash_partial (D : Nat) (evs : List Ev) (hs : Never sharing D empty evs)
    (hb : ∀ e ∈ evs, Ev.bare e = false) (hD : evs.length < D) : ∃ w, run D empty evs = .ok w := by
  have h := run_fine evs empty [] 0 inv_empty hs
  match hr : run D empty evs with
  | .ok w => exact ⟨w, rfl⟩
  | .error u =>
    rw [hr] at h
    rcases h with ⟨_, h⟩ | ⟨_, h⟩
    · simp only [empty] at h
      omega
    · exact absurd ⟨made_empty, hb⟩ h

/-- **C54 (contents).** After any such history, an event returns what the same event on Python lists returns and
leaves every list with the elements Python lists would have; it raises exactly when it should, and then nothing has
changed, unless an `__init__` stopped half way, which leaves what it had taken. -/
theorem C54_contents_partial (D : Nat) (evs : List Ev) (hs : Never sharing D empty evs) (w : World)
    (hw : run D empty evs = .ok w) (ev : Ev) (hev : sharing w ev = false) :
    match step D w ev with
    | .ok w' a => refused w ev = none ∧ answer (elems w) w.heap.next ev = some a ∧
        ∀ x, Lives w' x → elems w' x = after (elems w) w.heap.next ev x
    | .exc w' e => refused w ev = some e ∧ ((∀ x, Lives w' x → elems w' x = elems w x) ∨
        ∃ o items, ev = .init o items true ∧ e = .valueError ∧
          ∀ x, Lives w' x → elems w' x = after (elems w) w.heap.next ev x)
    | .pending _ _ _ => False
    | .ub u => (u = .stackOverflow ∧ D ≤ evs.length + 1) ∨ (u = .nullDeref ∧ ∃ e ∈ evs, Ev.bare e = true) := by
  have h := run_fine evs empty [] 0 inv_empty hs
  rw [hw] at h
  obtain ⟨⟨L, B, iv, _⟩, hm, hn⟩ := h
  have hf := step_fine (D := D) iv ev hev
  revert hf
  generalize step D w ev = r
  intro hf
  match r with
  | .ok w' a => exact ⟨hf.2.2.2, hf.2.2.1, hf.2.1⟩
  | .exc w' e => exact ⟨hf.1, hf.2.2⟩
  | .pending _ _ _ => exact hf
  | .ub u =>
    rcases hf with ⟨e, hd⟩ | ⟨e, hu⟩
    · refine .inl ⟨e, ?_⟩
      have := live_le w.heap
      simp only [empty] at hn
      omega
    · refine .inr ⟨e, ?_⟩
      by_cases hb : ∀ e ∈ evs, Ev.bare e = false
      · exact absurd (hm made_empty hb) hu
      · simpa using hb

/-- **C54 (everything is given back).** If no object is initialised twice (`C54_reinit_negation`) and no list contains
itself (`C54_cycle_negation`), then after any such history exactly the objects that can be reached are there, and
exactly the storage they own is allocated: nothing is freed early, nothing stays behind. When Python code has dropped
its last reference, nothing is left. -/
theorem C54_reclaimed_partial (D : Nat) (evs : List Ev) (hs : Never sharing D empty evs) (ho : Never again D empty evs)
    (w : World) (hw : run D empty evs = .ok w) (hc : NoCycle w) :
    (∀ x, Lives w x ↔ Reached w x) ∧
    w.heap.blocks = total (fun i => match w.heap.cells i with | some c => c.blocks | none => 0) w.heap.next ∧
    (w.names = [] → (∀ x, ¬ Lives w x) ∧ w.heap.blocks = 0) := by
  have ha := (C54_alive_partial D evs hs).2 w hw
  have h := run_fine evs empty [] 0 inv_empty hs
  rw [hw] at h
  obtain ⟨⟨L, B, iv, e⟩, _, _⟩ := h
  obtain ⟨rfl, rfl⟩ := e.1 ho
  obtain ⟨rank, hrank⟩ := hc
  simp only [List.append_nil] at iv
  have h1 : ∀ x, Lives w x ↔ Reached w x := by
    intro x
    constructor
    · have : ∀ n x, total rank w.heap.next - rank x < n → Lives w x → Reached w x := by
        intro n
        induction n with
        | zero => intro x hx; omega
        | succ n ih =>
          intro x hx ⟨c, hc⟩
          rcases iv.referrer hc with hR | ⟨o, d, ho, hd, hx'⟩
          · exact .name hR
          · obtain ⟨e, he, hr⟩ := List.mem_filterMap.1 hx'
            have hel : .obj x ∈ elems w o := by
              rw [elems_eq, itemsAt_some hd]
              cases e with
              | int v => simp [Elem.ref?] at hr
              | obj y => simp only [Elem.ref?, Option.some.injEq] at hr; exact hr ▸ he
            have hlt := hrank o x hel
            have hle := total_le (f := rank) w.heap.next ho
            exact .item (ih o (by omega) ⟨d, hd⟩) hel
      exact this _ x (Nat.lt_succ_self _)
    · intro r
      cases r with
      | name h => exact ha.1 x h
      | item r h => exact ha.2 _ x h
  have h2 : w.heap.blocks = total (fun i => match w.heap.cells i with | some c => c.blocks | none => 0) w.heap.next := by
    have := iv.blocks
    rw [Nat.add_zero] at this
    rw [this]
    refine total_congr _ fun i _ => ?_
    cases w.heap.cells i <;> rfl
  refine ⟨h1, h2, fun hn => ?_⟩
  have h3 : ∀ x, ¬ Lives w x := by
    intro x hx
    have := (h1 x).1 hx
    clear hx
    induction this with
    | name h => rw [hn] at h; cases h
    | item _ _ ih => exact ih
  refine ⟨h3, ?_⟩
  rw [h2]
  refine total_zero _ fun i _ => ?_
  match hi : w.heap.cells i with
  | none => rfl
  | some c => exact absurd ⟨c, hi⟩ (h3 i)

/-- At the end of `lifeHistory` the lists 1 and 3 and the integers 5 are there, and the object 0; no list contains itself. -/
example : ∃ w, run 20 empty lifeHistory = .ok w ∧ NoCycle w ∧ w.names ≠ [] ∧ Lives w 0 ∧ Lives w 1 ∧ ¬ Lives w 2 ∧
    elems w 3 = [.obj 1, .obj 0] ∧ elems w 5 = [.int 7] := by
  refine ⟨_, rfl, ⟨fun x => x, fun o x h => ?_⟩, by decide, ⟨_, rfl⟩, ⟨_, rfl⟩, (by rintro ⟨c, hc⟩; cases hc), rfl, rfl⟩
  have : ∀ o : Nat, o = 0 ∨ o = 1 ∨ o = 2 ∨ o = 3 ∨ o = 4 ∨ o = 5 ∨ 5 < o := by omega
  rcases this o with rfl | rfl | rfl | rfl | rfl | rfl | ho
  · exact nomatch (show Elem.obj x ∈ ([] : List Elem) from h)
  · have h : Elem.obj x ∈ [Elem.obj 0, Elem.obj 0] := h
    simp at h; dsimp only; omega
  · exact nomatch (show Elem.obj x ∈ ([] : List Elem) from h)
  · have h : Elem.obj x ∈ [Elem.obj 1, Elem.obj 0] := h
    simp at h; dsimp only; omega
  · exact nomatch (show Elem.obj x ∈ ([] : List Elem) from h)
  · exact nomatch (show Elem.obj x ∈ [Elem.int 7] from h)
  · obtain ⟨⟨L, B, iv, _⟩, _⟩ := (show FineRun 20 empty lifeHistory [] 0 (.ok _) from
      run_fine lifeHistory empty [] 0 inv_empty lifeHistory_never.1)
    have hn := iv.bound o ho
    simp only [elems] at h
    rw [hn] at h
    cases h

/-! ## What the code does instead -/

/-- Initialising a list that has been initialised (`l.__init__(...)`) loses its storage, and the references in it, in
every class: Python code drops everything and something stays. -/
theorem C54_reinit_negation (D : Nat) :
    (∀ k, k = .intArray ∨ k = .intLinked → ∃ w,
      run (D + 1) empty [.create k [.int 1] false, .init 0 [.int 2] false, .drop 0] = .ok w ∧
      w.names = [] ∧ (∀ x, ¬ Lives w x) ∧ w.heap.blocks ≠ 0) ∧
    ∀ k, k = .objArray ∨ k = .objLinked → ∃ w,
      run (D + 2) empty [.new .other, .create k [.obj 0] false, .init 1 [] false, .drop 1, .drop 0] = .ok w ∧
      w.names = [] ∧ Lives w 0 ∧ w.heap.blocks ≠ 0 := by
  constructor
  · rintro k (rfl | rfl) <;>
    · refine ⟨_, rfl, rfl, ?_, by decide⟩
      rintro x ⟨c, hc⟩
      simp only [Heap.put, alloc, upd, empty] at hc
      split at hc
      · cases hc
      · simp_all
  · rintro k (rfl | rfl) <;> exact ⟨_, rfl, rfl, ⟨_, rfl⟩, by decide⟩

/-- A linked list that was made by `__new__` only is a trap: dropping it, appending to it, clearing, copying it or
popping from it reads address 0. -/
theorem C54_uninitialised_negation (D : Nat) (k : Class) (hk : k.linked = true) (e : Elem) (he : e = .int 1 ∨ e = .obj 0) :
    ∀ ev, ev ∈ [.drop 1, .clear 1, .copy 1, .pop 1] ∨ (ev = .append 1 e ∧ k.holds e = true) →
      run (D + 1) empty [.new .other, .new k, ev] = .error .nullDeref := by
  intro ev hev
  cases k <;> simp [Class.linked] at hk <;>
  · rcases hev with hev | ⟨rfl, hh⟩
    · simp only [List.mem_cons, List.not_mem_nil, or_false] at hev
      rcases hev with rfl | rfl | rfl | rfl <;> rfl
    · rcases he with rfl | rfl <;> first | rfl | simp [Class.holds] at hh

/-- A list that contains itself is never destroyed: the types do not support the cycle collector. -/
theorem C54_cycle_negation (D : Nat) (k : Class) (hk : k = .objArray ∨ k = .objLinked) : ∃ w,
    run (D + 1) empty [.create k [] false, .append 0 (.obj 0), .drop 0] = .ok w ∧ w.names = [] ∧ Lives w 0 := by
  rcases hk with rfl | rfl <;> exact ⟨_, rfl, rfl, ⟨_, rfl⟩⟩

/-- A list of objects that is constructed from one of its own class does not count the references it takes: the
object that Python code still has is destroyed, and the next use of it is a use after free. -/
theorem C54_same_class_negation (D : Nat) (k : Class) (hk : k = .objArray ∨ k = .objLinked) :
    ∃ w, run (D + 2) empty [.new .other, .create k [.obj 0] false, .new k, .initFrom 2 1, .drop 1, .drop 2] = .ok w ∧
      0 ∈ w.names ∧ ¬ Lives w 0 ∧ step (D + 2) w (.dup 0) = .ub .useAfterFree := by
  rcases hk with rfl | rfl <;>
  · refine ⟨_, rfl, by decide, ?_, rfl⟩
    rintro ⟨c, hc⟩
    cases hc

/-- The destruction of nested lists is not bounded (Python bounds it with its trashcan): however large the stack, a
list of lists that is nested deeply enough, built without any of the things above, crashes the process when it is
dropped. -/
theorem C54_depth_negation (D : Nat) :
    Never sharing (D + 1) empty (nested (D + 1)) ∧ Never again (D + 1) empty (nested (D + 1)) ∧
    (∃ w, run (D + 1) empty (nested (D + 1)) = .ok w) ∧
    run (D + 1) empty (nested (D + 1) ++ [.drop (D + 1)]) = .error .stackOverflow := by
  obtain ⟨h, hr, _, hc, hs, ha⟩ := nested_spec D (D + 1)
  refine ⟨hs, ha, ⟨_, hr⟩, ?_⟩
  rw [run_append _ _ _ _ _ hr]
  simp only [run, step, List.contains_cons, beq_self_eq_true, Bool.true_or, if_true,
    chain_overflow (D + 1) (D + 1) h hc (Nat.le_refl _), finish]

end Verif.Props
