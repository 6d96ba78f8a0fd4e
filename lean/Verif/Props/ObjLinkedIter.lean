import Verif.Lemmas.ObjLinkedSession

/-!
# C28 for ObjectLinkedList
-/

namespace Verif.Props

open ObjLinked

/-- C28 for ObjectLinkedList, values: if the calls between the `next()` calls leave the number of elements alone and are
in the domain of the history theorem (`C33_ObjectLinkedList_history_partial`), the answers are those of Python's list
iterator, and every object handed out is alive. Missing: calls that change the number of elements. -/
theorem C28_ObjectLinkedList_values_partial (H : OHost) (strict : Bool) (ext : Obj → Nat) (s : OLState)
    (es : List OSEv) (hw : s.list.WF) (hc : Covered ext s.heap (vec s))
    (hk : ∀ op ∈ OSEv.calls es, OSizeKept op ∧ Held ext s.heap op) (ho : HistoryOk H (vec s) (OSEv.calls es)) :
    session H strict s (LIter.create s.list false) es = Spec.osession H (vec s) es :=
  (session_exact H strict es s _ 0 hw hc hk ho rfl).1

example : (∀ op ∈ OSEv.calls [.next, .call .reverse, .next, .call (.setItem (.int 2) 9), .next, .next],
      OSizeKept op ∧ Held (fun _ => 1) ⟨fun _ => false, fun _ => 2⟩ op) ∧
    Covered (fun _ => 1) ⟨fun _ => false, fun _ => 2⟩ (vec ⟨⟨[(0, 1), (1, 2), (2, 3)], 3, 0⟩, ⟨fun _ => false, fun _ => 2⟩⟩) ∧
    HistoryOk ⟨0, fun _ => false, fun _ _ _ => .ok true⟩ [1, 2, 3]
      (OSEv.calls [.next, .call .reverse, .next, .call (.setItem (.int 2) 9), .next, .next]) ∧
    Spec.osession ⟨0, fun _ => false, fun _ _ _ => .ok true⟩ [1, 2, 3]
      [.next, .call .reverse, .next, .call (.setItem (.int 2) 9), .next, .next] =
      [.yield 1, .yield 2, .yield 9, .stop] := by
  refine ⟨?_, ?_, ?_, by decide⟩
  · intro op hop
    have : op = .reverse ∨ op = .setItem (.int 2) 9 := by
      simpa [OSEv.calls] using hop
    rcases this with rfl | rfl
    · exact ⟨trivial, fun o ho => absurd ho (by simp [Spec.mentioned])⟩
    · exact ⟨trivial, fun o _ => .inr (Nat.one_pos)⟩
  · intro o _
    have : (vec ⟨⟨[(0, 1), (1, 2), (2, 3)], 3, 0⟩, ⟨fun _ => false, fun _ => 2⟩⟩).count o ≤ 1 := by
      have hnd : (vec ⟨⟨[(0, 1), (1, 2), (2, 3)], 3, 0⟩, ⟨fun _ => false, fun _ => 2⟩⟩).Nodup := by decide
      exact List.nodup_iff_count.1 hnd o
    show 1 + _ ≤ 2
    omega
  · exact ⟨trivial, by simp [OpOk], trivial⟩

/-- C28 for ObjectLinkedList, safety of forward iteration: as long as the calls between the `next()` calls are reading
calls, `l[i] = o`, `reverse`, `append`, `insert`, `remove`, `pop()` or `extend` (`OTracked`) in the domain of the history
theorem, every `next()` answers, and none touches a freed node, dereferences `end()` or hands out a dead object. Missing:
the calls that do not count as modifications in the code (negations below). -/
theorem C28_ObjectLinkedList_safe_partial (H : OHost) (strict : Bool) (ext : Obj → Nat) (s : OLState) (es : List OSEv)
    (hw : s.list.WF) (hc : Covered ext s.heap (vec s)) (hk : ∀ op ∈ OSEv.calls es, OTracked op ∧ Held ext s.heap op)
    (ho : HistoryOk H (vec s) (OSEv.calls es)) :
    (session H strict s (LIter.create s.list false) es).length = (es.filter (· == .next)).length ∧
      ∀ a ∈ session H strict s (LIter.create s.list false) es, ∀ u, a ≠ .ub u :=
  session_safe H strict es s _ hw hc hk ho (LIter.inv_create s.list) (Nat.le_refl _)

example : session ⟨0, fun _ => false, fun _ _ _ => .ok true⟩ true
    ⟨⟨[(0, 1), (1, 2), (2, 3)], 3, 0⟩, ⟨fun _ => false, fun _ => 2⟩⟩
    (LIter.create (⟨[(0, 1), (1, 2), (2, 3)], 3, 0⟩ : LState Obj) false)
    [.next, .call (.insert (.int 0) 7), .call (.pop none), .next, .call (.append 5), .next, .next] =
    [.yield 1, .yield 1, .yield 5, .stop] := by
  decide

/-- Negation of C28 for ObjectLinkedList: `del l[0]` of a list of two or more live objects frees the node the iterator
is going to read. -/
theorem C28_ObjectLinkedList_del_negation (H : OHost) (strict : Bool) (ext : Obj → Nat) (s : OLState)
    (hw : s.list.WF) (hc : Covered ext s.heap (vec s)) (hn : 1 < (vec s).length) :
    session H strict s (LIter.create s.list false) [.call (.del (.idx (.int 0))), .next] = [.ub .useAfterFree] := by
  have hsz : 1 < s.list.size := by simpa [vec] using hn
  have hx : (vec s)[0]? = some ((vec s)[0]'(by omega)) := List.getElem?_eq_getElem _
  obtain ⟨h', hd, -⟩ := Heap.decref_ok (hc.live (List.getElem_mem (l := vec s) (n := 0) (by omega)))
  have hst : step H strict s (.del (.idx (.int 0))) = .ok ⟨s.list.erase 0, h'⟩ .none := by
    have hi : asSsizeIndex (.int 0) = (0, none) := by decide
    simp only [step, del, hi, setItem]
    rw [if_neg (by omega), if_neg (by omega), listAt_eq]
    simp only [show min (Int.toNat 0) s.list.size = 0 by simp, hx, hd]
    rfl
  have hu := LinkedList.next_erased (it := LIter.create s.list false) (p := 0) hw rfl (by omega)
  rw [session, hst]
  simp only [Out.state?]
  rw [session]
  generalize (LIter.create s.list false).next (s.list.erase 0) = t at hu
  obtain ⟨it', a⟩ := t
  subst hu
  rfl

example : (vec ⟨⟨[(0, 1), (1, 2)], 2, 0⟩, ⟨fun _ => true, fun _ => 0⟩⟩).length = 2 := rfl

end Verif.Props
