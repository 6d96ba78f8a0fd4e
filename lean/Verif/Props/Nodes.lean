import Verif.Lemmas.Nodes

/-!
# C23 for the linked lists: copies share no node

IntLinkedList and ObjectLinkedList down to the nodes of their `std::list`: several lists in one memory, each a ring of nodes.
-/

namespace Verif.Props

open Verif.Nodes

variable {α : Type}

/-- Every history of linked lists (creation, copies, assignment, extension by another list, insertion, removal, slices,
reversal, sorting, destruction) whose indices are in range, as the methods check: no operation touches a freed node, every
call answers as on independent sequences, and after each call a loop over any list reads exactly its own sequence. -/
theorem C23_linked_refines (es : List (Ev α)) (hok : Spec.Ok (fun _ => none) es) :
    ∃ ws : List (World α), run World.start es = List.zipWith .ok ws (Spec.answers (fun _ => none) es) ∧
      ws.length = es.length ∧
      ∀ k, (hk : k < ws.length) → ∀ o, contents ws[k] o = (Spec.after (fun _ => none) (es.take (k + 1)) o).map .ok := by
  obtain ⟨ws, h1, h2, h3⟩ := run_refines es (holds_start (α := α)) hok
  exact ⟨ws, h1, h2, fun k hk o => (h3 k hk).contents o⟩

example : ∃ es : List (Ev Nat), Spec.Ok (fun _ => none) es ∧ es.length = 9 ∧
    Spec.answers (fun _ => none) es = [.none, .none, .none, .none, .none, .none, .none, .vals [7, 5], .vals [5, 5]] := by
  refine ⟨[.create 0, .on 0 (.push 5), .on 0 (.push 7), .copy 0 1, .on 0 .reverse, .on 1 (.eraseAt 1), .extend 1 1,
    .on 0 .toList, .on 1 .toList], ?_, rfl, rfl⟩
  simp [Spec.Ok, Spec.evOk, Spec.step, Spec.set, Spec.opStep, Spec.opOk]

/-- Whatever has happened before, `c = l.copy()` succeeds for a linked list and gives a list with the same elements, leaving
the original and all other lists as they are. -/
theorem C23_linked_copy {es : List (Ev α)} (hok : Spec.Ok (fun _ => none) es) {w : World α}
    (hr : runTo World.start es = some w) {o c : Nat} {l : List α} (ho : contents w o = some (.ok l))
    (hc : contents w c = none) :
    ∃ w', step w (.copy o c) = .ok w' .none ∧ contents w' c = some (.ok l) ∧ ∀ p, p ≠ c → contents w' p = contents w p := by
  obtain ⟨w1, h1, hw⟩ := runTo_holds es (holds_start (α := α)) hok
  rw [hr] at h1
  obtain rfl : w = w1 := by simpa using h1
  generalize Spec.after (fun _ => none) es = g at hw
  rw [hw.contents] at ho hc
  have ho : g o = some l := by
    rcases h : g o with _ | x
    · rw [h] at ho; simp at ho
    · rw [h] at ho; simpa using ho
  have hc : g c = none := by simpa using hc
  obtain ⟨w', e, h⟩ := step_refines hw (.copy o c) trivial (fun _ _ h => h)
  refine ⟨w', e, ?_, ?_⟩
  · rw [h.contents]; simp [Spec.step, hc, ho, Spec.set]
  · intro p hp
    rw [h.contents, hw.contents]; simp [Spec.step, hc, ho, Spec.set, hp]

example : ∃ w, runTo World.start [.create 0, .on 0 (.push 5), .on 0 (.push 7)] = some w ∧
    contents w 0 = some (.ok [5, 7]) ∧ contents w 1 = none :=
  ⟨_, rfl, rfl, rfl⟩

/-- No history on other linked lists, whatever it does to them or from them, changes a list: neither what happens to the
original the copy, nor what happens to the copy the original. -/
theorem C23_linked_independent {es es' : List (Ev α)} (hok : Spec.Ok (fun _ => none) (es ++ es')) {w : World α} {c : Nat}
    (hr : runTo World.start es = some w) (hn : ∀ e ∈ es', ¬ Spec.changes c e) :
    ∃ w', runTo w es' = some w' ∧ contents w' c = contents w c := by
  obtain ⟨h1, h2⟩ := (ok_append es es').mp hok
  obtain ⟨w1, e1, hw⟩ := runTo_holds es (holds_start (α := α)) h1
  rw [hr] at e1
  obtain rfl : w = w1 := by simpa using e1
  obtain ⟨w2, e2, hw2⟩ := runTo_holds es' hw h2
  exact ⟨w2, e2, by rw [hw2.contents, hw.contents, after_others es' hn]⟩

example : ∃ es es' : List (Ev Nat), Spec.Ok (fun _ => none) (es ++ es') ∧ (∀ e ∈ es', ¬ Spec.changes 1 e) ∧
    (∃ w, runTo World.start es = some w ∧ contents w 1 = some (.ok [5])) ∧
    ∃ w, runTo World.start (es ++ es') = some w ∧ contents w 0 = some (.ok [5, 9]) := by
  refine ⟨[.create 0, .on 0 (.push 5), .copy 0 1], [.extend 0 1, .on 0 (.setAt 1 9), .create 2, .drop 2], ?_, ?_, ⟨_, rfl, rfl⟩,
    ⟨_, rfl, rfl⟩⟩
  · simp [Spec.Ok, Spec.evOk, Spec.step, Spec.set, Spec.opStep, Spec.opOk]
  · simp [Spec.changes]

/-- What the hypotheses on the indices rule out: erasing at the end of a list is undefined behaviour. -/
theorem C23_linked_range_needed : ∃ w : World Nat, runTo World.start [.create 0, .on 0 (.push 5)] = some w ∧
    step w (.on 0 (.eraseAt 1)) = .ub .badIterator :=
  ⟨_, rfl, rfl⟩

end Verif.Props
