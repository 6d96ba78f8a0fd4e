import Verif.Lemmas.LinkedSession
import Verif.Lemmas.LinkedIter
import Verif.Model.LinkedSession
import Verif.Spec.GuardIter

/-!
# C27, C28: iterating linked lists

C27 is stated for every element type, so it covers the iterators of IntLinkedList and ObjectLinkedList; the
hypothesis `WF` (distinct node identities) is an invariant of all histories (`C24_nodes_distinct`).
-/

namespace Verif.Props

open Verif LinkedList

/-! ## C27: unmodified lists -/

/-- C27, forward, in full: on an unmodified list the iterator answers as Python's list iterator over the same
contents, call by call, however often it is called. -/
theorem C27_forward (s : LState α) (hw : s.WF) (m : Nat) :
    (LIter.create s false).run (List.replicate m s) = Spec.iterRun 0 (List.replicate m s.vals) :=
  LIter.run_exact hw m _ 0 rfl

example : (LIter.create (⟨[(0, 5), (1, 6)], 2, 0⟩ : LState Int) false).run
    (List.replicate 3 ⟨[(0, 5), (1, 6)], 2, 0⟩) = [.yield 5, .yield 6, .stop] := by decide

/-- What reversed iteration of an unmodified non-empty list does: last to second element, and then the last element
once more instead of the first. -/
theorem C27_reversed_actual (s : LState α) (hw : s.WF) (x : α) (t : List α) (hv : s.vals = x :: t) (m : Nat) :
    (LIter.create s true).run (List.replicate m s) =
      ((t.reverse ++ [(x :: t).getLast (by simp)]).map Next.yield ++ List.replicate m Next.stop).take m := by
  have hlen : s.size = t.length + 1 := by
    have := congrArg List.length hv; simpa using this
  have := LIter.run_reversed hw x t hv t.length m (by omega)
  rw [List.take_length] at this
  rw [← this]
  simp only [LIter.create, if_true, hlen]
  rfl

/-- C27, reversed, for the lists whose first and last elements coincide (in particular one-element and empty lists):
as Python's reverse iterator. Missing: all other lists. -/
theorem C27_reversed_partial (s : LState α) (hw : s.WF) (h : s.vals.head? = s.vals.getLast?) (m : Nat) :
    (LIter.create s true).run (List.replicate m s) = Spec.revRun s.vals.length (List.replicate m s.vals) := by
  rw [LIter.revRun_replicate _ _ _ (Nat.le_refl _), List.take_length]
  cases hv : s.vals with
  | nil =>
    have h0 : s.size = 0 := by have := congrArg List.length hv; simpa using this
    have hr : ∀ it : LIter, it.run (List.replicate m s) = List.replicate m Next.stop := by
      intro it
      induction m with
      | zero => rfl
      | succ m ih =>
        rw [List.replicate_succ, LIter.run]
        have : it.next s = (it, .stop) := by unfold LIter.next; rw [if_pos h0]
        rw [this, List.replicate_succ]
        simp only [ih]
    rw [hr]; simp
  | cons x t =>
    rw [C27_reversed_actual s hw x t hv]
    rw [hv, List.head?_cons, List.getLast?_eq_some_getLast (by simp)] at h
    rw [← Option.some.inj h, List.reverse_cons]

example : (LIter.create (⟨[(0, 5), (1, 6), (2, 5)], 3, 0⟩ : LState Int) true).run
    (List.replicate 4 ⟨[(0, 5), (1, 6), (2, 5)], 3, 0⟩) = [.yield 5, .yield 6, .yield 5, .stop] := by decide

/-- Negation of C27 for reversed iteration: exactly the lists whose first and last elements differ are iterated
wrongly. -/
theorem C27_reversed_negation (s : LState α) (hw : s.WF) (h : s.vals.head? ≠ s.vals.getLast?) :
    (LIter.create s true).run (List.replicate s.vals.length s) ≠
      Spec.revRun s.vals.length (List.replicate s.vals.length s.vals) := by
  cases hv : s.vals with
  | nil => rw [hv] at h; exact absurd rfl h
  | cons x t =>
    rw [C27_reversed_actual s hw x t hv, LIter.revRun_replicate _ _ _ (Nat.le_refl _), List.take_length]
    rw [hv, List.head?_cons, List.getLast?_eq_some_getLast (by simp)] at h
    have e1 : (x :: t).length = ((t.reverse ++ [(x :: t).getLast (by simp)]).map Next.yield).length := by simp
    have e2 : (x :: t).length = ((x :: t).reverse.map (Next.yield (α := α))).length := by simp
    intro he
    conv at he => lhs; rw [List.take_append_of_le_length (by rw [← e1]; exact Nat.le_refl _), List.take_of_length_le (by rw [← e1]; exact Nat.le_refl _)]
    conv at he => rhs; rw [List.take_append_of_le_length (by rw [← e2]; exact Nat.le_refl _), List.take_of_length_le (by rw [← e2]; exact Nat.le_refl _)]
    rw [List.reverse_cons, List.map_append, List.map_append] at he
    have := List.append_cancel_left he
    simp only [List.map_cons, List.map_nil, List.cons.injEq, and_true, Next.yield.injEq] at this
    exact h (by rw [this])

example : (LIter.create (⟨[(0, 1), (1, 2), (2, 3)], 3, 0⟩ : LState Int) true).run
    (List.replicate 4 ⟨[(0, 1), (1, 2), (2, 3)], 3, 0⟩) = [.yield 3, .yield 2, .yield 3, .stop] := by decide

/-! ## C28: lists modified during the iteration -/

/-- C28, values: if the calls between the `next()` calls leave the number of elements alone (`SizeKept`) and are in
the domain of the history theorem (`HistoryOk`, see `C24_history_partial`), the answers are those of Python's list
iterator. Missing: calls that change the number of elements. -/
theorem C28_values_partial (cfg : Cfg) (strict : Bool) (s : LState Int) (es : List Ev) (hw : s.WF)
    (hl : AllFits .i32 s.vals) (hk : ∀ op ∈ Ev.calls es, SizeKept op) (ho : HistoryOk cfg s.vals (Ev.calls es)) :
    session cfg strict s (LIter.create s false) es = Spec.session s.vals es :=
  (session_exact cfg strict es s _ 0 hw hl hk ho rfl).1

example : (∀ op ∈ Ev.calls [.next, .call .reverse, .next, .call (.set (.idx (.int 2)) (.inl (.int 9))), .next, .next],
    SizeKept op) ∧
    HistoryOk ⟨.ge313, false, true, true, true⟩ [1, 2, 3]
      (Ev.calls [.next, .call .reverse, .next, .call (.set (.idx (.int 2)) (.inl (.int 9))), .next, .next]) ∧
    Spec.session [1, 2, 3] [.next, .call .reverse, .next, .call (.set (.idx (.int 2)) (.inl (.int 9))), .next, .next] =
      [.yield 1, .yield 2, .yield 9, .stop] := by
  decide

/-- C28, memory safety of forward iteration: as long as the calls between the `next()` calls are reading calls,
`l[i] = v`, `reverse`, `append`, `insert`, `remove`, `pop()` or `extend` with good items (`Tracked`), with whatever
arguments and outcomes, no `next()` touches a freed node or dereferences `end()`. Missing: the calls that do not
count as modifications in the code (`C28_del_negation`, `C28_iadd_negation`, `C28_clear_negation`). -/
theorem C28_safe_partial (cfg : Cfg) (strict : Bool) (s : LState Int) (es : List Ev) (hw : s.WF)
    (hk : ∀ op ∈ Ev.calls es, Tracked op) :
    ∀ a ∈ session cfg strict s (LIter.create s false) es, ∀ u, a ≠ .ub u :=
  session_safe cfg strict es s _ hw hk (LIter.inv_create s) (Nat.le_refl _)

example : session ⟨.ge313, false, true, true, true⟩ true ⟨[(0, 1), (1, 2), (2, 3)], 3, 0⟩
    (LIter.create ⟨[(0, 1), (1, 2), (2, 3)], 3, 0⟩ false)
    [.next, .call (.insert (.int 0) (.int 7)), .call (.remove (.int 3)), .next, .call (.append (.int 5)), .next, .next] =
    [.yield 1, .yield 1, .yield 5, .stop] := by
  decide

/-- Negation of C28, safety: after `p` steps `del l[p]` frees the node the iterator is going to read; the next step
reads it (unless it was the last one). -/
theorem C28_del_negation (cfg : Cfg) (strict : Bool) (s : LState Int) (hw : s.WF) (p : Nat)
    (hp : p + 1 < s.vals.length) (hn : (s.vals.length : Int) ≤ ssizeMax) :
    session cfg strict s (LIter.create s false) (List.replicate p .next ++ [.call (.del (.idx (.int p))), .next]) =
      (s.vals.take p).map Next.yield ++ [.ub .useAfterFree] := by
  obtain ⟨it, he, hs⟩ := session_prefix cfg strict hw (es := [.call (.del (.idx (.int p))), .next]) p
    (by simp at hp; omega)
  have hd := del_eq cfg strict s p (by simp at hp; omega) hn
  have hx := next_erased hw he (by simpa using hp)
  rw [hs, session_call hd, session_ub hx]

/-- Negation of C28, safety: when the iterator stands at the end, `l += [v]` makes the next step dereference
`end()`. -/
theorem C28_iadd_negation (cfg : Cfg) (strict : Bool) (s : LState Int) (hw : s.WF) (v : Int) (hv : FitsS 32 v) :
    session cfg strict s (LIter.create s false)
      (List.replicate s.vals.length .next ++ [.call (.iadd (.list [.int v])), .next]) =
      s.vals.map Next.yield ++ [.ub .outOfBounds] := by
  obtain ⟨it, he, hs⟩ := session_prefix cfg strict hw (es := [.call (.iadd (.list [.int v])), .next]) s.vals.length
    (by simp)
  have hd := iadd_eq cfg strict s v hv
  rw [hs, List.take_length, session_call hd, session_ub]
  subst he
  simp [LIter.next, LIter.updateCache, LIter.readMove, LIter.locate, LIter.atPos, LState.push, LState.size,
    LState.ids, LState.vals, Nat.not_succ_le_self]

/-- Negation of C28, values: after `p` steps and an `append(v)`, the remaining old elements are yielded but the
iterator stops before `v`; Python's iterator yields `v`. -/
theorem C28_append_negation (cfg : Cfg) (strict : Bool) (s : LState Int) (hw : s.WF) (p : Nat)
    (hp : p < s.vals.length) (v : Int) (hv : FitsS 32 v) :
    session cfg strict s (LIter.create s false) (List.replicate p .next ++
      .call (.append (.int v)) :: List.replicate (s.vals.length - p + 1) .next) = s.vals.map Next.yield ++ [.stop] := by
  obtain ⟨it, he, hs⟩ := session_prefix cfg strict hw
    (es := .call (.append (.int v)) :: List.replicate (s.vals.length - p + 1) .next) p (by simp at hp; omega)
  have hd := append_eq cfg strict s v hv
  have hw' : (s.push v).bump.WF := LState.wf_bump (LState.wf_push hw v)
  have hsz : (s.push v).bump.size = s.size + 1 := by
    rw [← LState.length_vals, LState.vals_bump, LState.vals_push]; simp
  simp at hp
  obtain ⟨hy, hx⟩ := LIter.next_refresh hw' he (by simp [LState.bump, LState.push]) (by omega)
  rw [hs]
  simp only [session, hd, Out.state?, LState.length_vals]
  rw [List.replicate_succ, session_next (it' := (it.next (s.push v).bump).1) (a := .yield _) (by rw [← hy]) (by simp)]
  obtain ⟨k, hk⟩ : ∃ k, s.size - p = k + 1 := ⟨s.size - p - 1, by omega⟩
  rw [hk, session_late cfg strict hw' k _ _ hx (by omega)]
  have hpl : p < s.vals.length := by simpa using hp
  simp only [LState.vals_bump, LState.vals_push]
  rw [List.drop_append_of_le_length (by omega), List.dropLast_concat, List.getElem_append_left hpl]
  have e : s.vals = s.vals.take p ++ s.vals[p] :: s.vals.drop (p + 1) := by
    rw [← List.drop_eq_getElem_cons, List.take_append_drop]
  have e' := congrArg (List.map (Next.yield (α := Int))) e
  rw [List.map_append, List.map_cons] at e'
  rw [e', List.append_assoc]
  rfl

example : Spec.session [1, 2] [.next, .call (.append (.int 3)), .next, .next] = [.yield 1, .yield 2, .yield 3] := by
  decide

/-- Negation of C28, safety, for `clear`: the freed nodes are still read after the list has been refilled by `+=`. -/
theorem C28_clear_negation (cfg : Cfg) (strict : Bool) (x y : Int) (hy : FitsS 32 y) :
    session cfg strict ⟨[(0, x)], 1, 0⟩ (LIter.create ⟨[(0, x)], 1, 0⟩ false)
      [.call .clear, .call (.iadd (.list [.int y])), .next] = [.ub .useAfterFree] := by
  have hd := iadd_eq cfg strict ⟨[], 1, 0⟩ y hy
  simp only [session, step, LState.clear, Out.state?]
  simp only [step] at hd
  rw [hd]
  rfl

/-- Negation of C28, safety, for reversed iteration: after the list has become shorter than the remaining index the
iterator dereferences `end()`. -/
theorem C28_reversed_negation (cfg : Cfg) (strict : Bool) (x y z : Int) :
    session cfg strict ⟨[(0, x), (1, y), (2, z)], 3, 0⟩ (LIter.create ⟨[(0, x), (1, y), (2, z)], 3, 0⟩ true)
      [.next, .call (.pop none), .call (.pop none), .next] = [.yield z, .ub .outOfBounds] :=
  rfl

end Verif.Props
