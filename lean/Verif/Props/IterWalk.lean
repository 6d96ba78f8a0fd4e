import Verif.Lemmas.IterWalk

/-!
# C28, complete: every answer of the iterators of linked lists
-/

namespace Verif.Props

section
open LinkedList

/-- C28, the forward iterator of an IntLinkedList, complete for the calls it can survive (`Tracked`) in the domain of the
history theorem: the whole sequence of answers, as a function of the contents at each `next()` and of whether a call
between two of them was one it notices (`Spec.walk`). -/
theorem C28_forward_exact (cfg : Cfg) (strict : Bool) (s : LState Int) (es : List Ev) (hw : s.WF)
    (hl : AllFits .i32 s.vals) (hk : ∀ op ∈ Ev.calls es, Tracked op) (ho : HistoryOk cfg s.vals (Ev.calls es)) :
    session cfg strict s (LIter.create s false) es = Spec.walk 0 0 false (Spec.steps s.vals false es) :=
  session_walk cfg strict es s _ 0 0 false false hw hl hk ho (LIter.fwd_create s)

/-- C28, the reverse iterator of an IntLinkedList, likewise (`Spec.walkBack`); this one can run off the list. -/
theorem C28_reversed_exact (cfg : Cfg) (strict : Bool) (s : LState Int) (es : List Ev) (hw : s.WF)
    (hl : AllFits .i32 s.vals) (hk : ∀ op ∈ Ev.calls es, Tracked op) (ho : HistoryOk cfg s.vals (Ev.calls es)) :
    session cfg strict s (LIter.create s true) es =
      Spec.walkBack (some (s.vals.length - 1)) (s.vals.length - 1) false (Spec.steps s.vals false es) := by
  have := session_walkBack cfg strict es s _ _ _ false false hw hl hk ho (LIter.bwd_create s)
  rw [LState.length_vals]
  exact this

example : (∀ op ∈ Ev.calls [.next, .call (.insert (.int 0) (.int 7)), .next, .call (.append (.int 5)), .call (.pop none),
      .next, .next, .call (.remove (.int 99)), .next], Tracked op) ∧
    HistoryOk ⟨.ge313, false, true, true, true⟩ [1, 2, 3, 4]
      (Ev.calls [.next, .call (.insert (.int 0) (.int 7)), .next, .call (.append (.int 5)), .call (.pop none), .next, .next,
        .call (.remove (.int 99)), .next]) ∧
    Spec.walk 0 0 false (Spec.steps [1, 2, 3, 4] false [.next, .call (.insert (.int 0) (.int 7)), .next,
      .call (.append (.int 5)), .call (.pop none), .next, .next, .call (.remove (.int 99)), .next]) =
      [.yield 1, .yield 1, .yield 3, .stop, .stop] ∧
    Spec.walkBack (some 3) 3 false (Spec.steps [1, 2, 3, 4] false [.next, .call (.insert (.int 0) (.int 7)), .next,
      .call (.append (.int 5)), .call (.pop none), .next, .next, .call (.remove (.int 99)), .next]) =
      [.yield 4, .yield 2, .yield 4, .stop, .stop] := by
  decide

end

section
open ObjLinked

/-- C28, the forward iterator of an ObjectLinkedList, complete for the calls it can survive (`OTracked`) in the domain of
the history theorem. -/
theorem C28_ObjectLinkedList_forward_exact (H : OHost) (strict : Bool) (ext : Obj → Nat) (s : OLState) (es : List OSEv)
    (hw : s.list.WF) (hc : Covered ext s.heap (vec s)) (hk : ∀ op ∈ OSEv.calls es, OTracked op ∧ Held ext s.heap op)
    (ho : HistoryOk H (vec s) (OSEv.calls es)) :
    session H strict s (LIter.create s.list false) es = Spec.walk 0 0 false (Spec.osteps H (vec s) false es) :=
  session_walk H strict es s _ 0 0 false false hw hc hk ho (LIter.fwd_create s.list)

/-- C28, the reverse iterator of an ObjectLinkedList, likewise. -/
theorem C28_ObjectLinkedList_reversed_exact (H : OHost) (strict : Bool) (ext : Obj → Nat) (s : OLState) (es : List OSEv)
    (hw : s.list.WF) (hc : Covered ext s.heap (vec s)) (hk : ∀ op ∈ OSEv.calls es, OTracked op ∧ Held ext s.heap op)
    (ho : HistoryOk H (vec s) (OSEv.calls es)) :
    session H strict s (LIter.create s.list true) es =
      Spec.walkBack (some ((vec s).length - 1)) ((vec s).length - 1) false (Spec.osteps H (vec s) false es) := by
  have := session_walkBack H strict es s _ _ _ false false hw hc hk ho (LIter.bwd_create s.list)
  have hn : (vec s).length = s.list.size := by simp [vec]
  rw [hn]
  exact this

example : (∀ op ∈ OSEv.calls [.next, .call (.insert (.int 0) 9), .next, .call (.pop none), .call (.pop none), .next],
      OTracked op ∧ Held (fun _ => 1) ⟨fun _ => false, fun _ => 2⟩ op) ∧
    Covered (fun _ => 1) ⟨fun _ => false, fun _ => 2⟩ (vec ⟨⟨[(0, 1), (1, 2), (2, 3), (3, 4)], 4, 0⟩, ⟨fun _ => false, fun _ => 2⟩⟩) ∧
    HistoryOk ⟨0, fun _ => false, fun _ _ _ => .ok true⟩ [1, 2, 3, 4]
      (OSEv.calls [.next, .call (.insert (.int 0) 9), .next, .call (.pop none), .call (.pop none), .next]) ∧
    Spec.walk 0 0 false (Spec.osteps ⟨0, fun _ => false, fun _ _ _ => .ok true⟩ [1, 2, 3, 4] false
      [.next, .call (.insert (.int 0) 9), .next, .call (.pop none), .call (.pop none), .next]) =
      [.yield 1, .yield 1, .stop] ∧
    Spec.walkBack (some 3) 3 false (Spec.osteps ⟨0, fun _ => false, fun _ _ _ => .ok true⟩ [1, 2, 3, 4] false
      [.next, .call (.insert (.int 0) 9), .next, .call (.pop none), .call (.pop none), .next]) =
      [.yield 4, .yield 2, .yield 2] := by
  refine ⟨?_, ?_, ?_, by decide, by decide⟩
  · intro op hop
    have : op = .insert (.int 0) 9 ∨ op = .pop none := by simpa [OSEv.calls] using hop
    rcases this with rfl | rfl
    · exact ⟨trivial, fun o _ => .inr (Nat.one_pos)⟩
    · exact ⟨trivial, fun o ho => absurd ho (by simp [Spec.mentioned])⟩
  · intro o _
    have : (vec ⟨⟨[(0, 1), (1, 2), (2, 3), (3, 4)], 4, 0⟩, ⟨fun _ => false, fun _ => 2⟩⟩).count o ≤ 1 := by
      have hnd : (vec ⟨⟨[(0, 1), (1, 2), (2, 3), (3, 4)], 4, 0⟩, ⟨fun _ => false, fun _ => 2⟩⟩).Nodup := by decide
      exact List.nodup_iff_count.1 hnd o
    show 1 + _ ≤ 2
    omega
  · simp [OSEv.calls, HistoryOk, OpOk, OObj.popOk]

end

end Verif.Props
