import Verif.Lemmas.LengthHint
import Verif.Spec.LengthHint
import Verif.Spec.ObjList

/-!
# C68 A failing length hint makes extend raise and take nothing
-/

namespace Verif.Props

open Hint

/-- C68, int array lists: if asking for the hint works, `extend` and `+=` do with the items exactly what they do with those of any
iterator (C03), on the list as the methods asked left it; if they return, the iterator is used up. -/
theorem C68_hint_works (cfg : Cfg) (K : Kind) (l l' : List Int) (o : Iterable (List Int) Arg)
    (h : Spec.HintWorks o l l') :
    (match (Hint.extend K Ret.none l o).result with
      | .ok r => ArrayList.step cfg K l' (.extend (.iter o.items o.fin)) = .ok (Hint.extend K Ret.none l o).list r ∧
        (Hint.extend K Ret.none l o).left = []
      | .error x => ∃ e, x = .exc e ∧
        ArrayList.step cfg K l' (.extend (.iter o.items o.fin)) = .exc (Hint.extend K Ret.none l o).list e) ∧
    (match (Hint.extend K Ret.self l o).result with
      | .ok r => ArrayList.step cfg K l' (.iadd (.iter o.items o.fin)) = .ok (Hint.extend K Ret.self l o).list r ∧
        (Hint.extend K Ret.self l o).left = []
      | .error x => ∃ e, x = .exc e ∧
        ArrayList.step cfg K l' (.iadd (.iter o.items o.fin)) = .exc (Hint.extend K Ret.self l o).list e) := by
  obtain ⟨n, h⟩ := h
  obtain ⟨h1, h2, h3⟩ := loop_eq K o.items l'
  simp only [Hint.extend, h, ArrayList.step, ArrayList.extend, ArrayList.iadd, ArrayList.extendWith]
  generalize loop K o.items l' = t at h1 h2 h3
  generalize ArrayList.extendLoop K o.items l' = t' at h1 h2
  obtain ⟨m, as, e⟩ := t
  obtain ⟨m', e'⟩ := t'
  simp only at h1 h2 h3
  subst h1 h2
  cases e with
  | some e => exact ⟨⟨e, rfl, rfl⟩, ⟨e, rfl, rfl⟩⟩
  | none =>
    cases o.fin with
    | some e => exact ⟨⟨e, rfl, rfl⟩, ⟨e, rfl, rfl⟩⟩
    | none => exact ⟨⟨rfl, h3 rfl⟩, ⟨rfl, h3 rfl⟩⟩

example : Spec.HintWorks ⟨fun l => (l ++ [7], .raised (.exc .typeError)), fun l => (l, .int 2), [Arg.int 1, .int 2], none⟩
    [5] [5, 7] := ⟨2, rfl⟩

/-- C68, int array lists, what is taken: if asking for the hint works and the call raises, then either the exception is that of
converting an item, and that item and those before it are taken, or all items are and the exception is that of the iterator. -/
theorem C68_taken (K : Kind) (r : Ret) (l l' : List Int) (o : Iterable (List Int) Arg) (x : Raised)
    (h : Spec.HintWorks o l l') (hr : (Hint.extend K r l o).result = .error x) :
    (∃ good a e, o.items = good ++ a :: (Hint.extend K r l o).left ∧ (∀ b ∈ good, (toElem K b).2 = none) ∧
      (toElem K a).2 = some e ∧ x = .exc e) ∨
    ((Hint.extend K r l o).left = [] ∧ (∀ b ∈ o.items, (toElem K b).2 = none) ∧ ∃ e, o.fin = some e ∧ x = .exc e) := by
  obtain ⟨n, h⟩ := h
  have hl := loop_taken K o.items l'
  revert hr
  simp only [Hint.extend, h]
  generalize loop K o.items l' = t at hl
  obtain ⟨m, as, _ | e⟩ := t
  · obtain ⟨h1, h2⟩ := hl
    cases hf : o.fin with
    | none => nofun
    | some e =>
      intro hr
      injection hr with hr
      exact .inr ⟨h1, h2, e, rfl, hr.symm⟩
  · intro hr
    injection hr with hr
    obtain ⟨good, a, h1, h2, h3⟩ := hl
    exact .inl ⟨good, a, e, h1, h2, h3, hr.symm⟩

example : Spec.HintWorks ⟨fun l => (l, .int 3), fun l => (l, .absent), [Arg.int 1, .other, .int 2], none⟩ [5] [5] ∧
    (Hint.extend .i32 Ret.none [5] ⟨fun l => (l, .int 3), fun l => (l, .absent), [Arg.int 1, .other, .int 2], none⟩).left =
      [.int 2] := ⟨⟨3, rfl⟩, rfl⟩

/-- C68, int array lists, for every element type: if asking for the hint fails, nothing is stored, whatever the items are: the list is
as the methods asked left it. And the call raises, unless the hint raised StopIteration and there are no items. Missing: one item
is taken from the iterator, and the exception may be another one (`C68_exact`): that of converting the item taken or, if there are none,
that of the iterator. -/
theorem C68_hint_fails_partial (K : Kind) (r : Ret) (l l' : List Int) (o : Iterable (List Int) Arg) (x : Raised)
    (h : Spec.HintFails o l l' x) (hx : x ≠ .stopIteration ∨ o.items ≠ []) :
    (Hint.extend K r l o).list = l' ∧ (Hint.extend K r l o).left = o.items.drop 1 ∧
      (Hint.extend K r l o).result = .error (match o.items.head?, o.fin with
        | some a, _ => match (toElem K a).2 with | some e => .exc e | none => x
        | none, some e => .exc e
        | none, none => x) := by
  obtain ⟨len, hint, items, fin⟩ := o
  have h' : lengthHint _ l = _ := h
  simp only [Hint.extend, h']
  cases items with
  | nil =>
    cases fin with
    | some e => exact ⟨rfl, rfl, rfl⟩
    | none =>
      simp only
      have : ¬ x = .stopIteration := by rcases hx with h | h; exact h; exact absurd rfl h
      rw [if_neg this]
      exact ⟨trivial, rfl, rfl⟩
  | cons a as =>
    simp only [List.head?_cons]
    generalize toElem K a = t
    obtain ⟨v, e⟩ := t
    cases e with
    | none => exact ⟨rfl, rfl, rfl⟩
    | some e => exact ⟨rfl, rfl, rfl⟩

/-- C68, int array lists, exactly: if asking for the hint fails, the call does what Python's list does precisely if the iterator has
no items left, ends without an exception of its own (or one like that of the hint), and the hint did not raise
StopIteration. -/
theorem C68_exact (K : Kind) (r : Ret) (l l' : List Int) (o : Iterable (List Int) Arg) (x : Raised)
    (h : Spec.HintFails o l l' x) :
    Hint.extend K r l o = Spec.hintFailed o l' x ↔
      o.items = [] ∧ (∀ e, o.fin = some e → x = .exc e) ∧ (o.fin = none → x ≠ .stopIteration) := by
  obtain ⟨len, hint, items, fin⟩ := o
  have h' : lengthHint _ l = _ := h
  simp only [Hint.extend, h', Spec.hintFailed]
  cases items with
  | nil =>
    cases fin with
    | some e => simp [eq_comm]
    | none =>
      by_cases hx : x = .stopIteration
      · simp [hx]
      · simp [hx]
  | cons a as =>
    simp only
    generalize toElem K a = t
    obtain ⟨v, e⟩ := t
    cases e <;> simp

/-- The negation for int array lists: a `__len__` that raises any exception but TypeError, and an item: the item is gone. -/
theorem C68_item_lost (K : Kind) (r : Ret) (l : List Int) (x : Raised) (hx : x ≠ .exc .typeError) (a : Arg)
    (as : List Arg) :
    ∃ o : Iterable (List Int) Arg, o.items = a :: as ∧ Spec.HintFails o l l x ∧ (Hint.extend K r l o).left = as := by
  refine ⟨⟨fun l => (l, .raised x), fun l => (l, .absent), a :: as, none⟩, rfl, ?_, ?_⟩
  · simp [Spec.HintFails, lengthHint, hx]
  · simp only [Hint.extend, lengthHint, hx, if_false]
    generalize toElem K a = t
    obtain ⟨v, e⟩ := t
    cases e <;> rfl

/-- The negation for int array lists: a `__length_hint__` that raises StopIteration goes unnoticed if there are no items. -/
theorem C68_stop_swallowed (K : Kind) (r : Ret) (l : List Int) :
    ∃ o : Iterable (List Int) Arg, Spec.HintFails o l l .stopIteration ∧ Hint.extend K r l o = ⟨l, [], .ok r⟩ :=
  ⟨⟨fun l => (l, .absent), fun l => (l, .raised .stopIteration), [], none⟩, rfl, rfl⟩

example : Spec.HintFails ⟨fun l => (l ++ [7], .int (-1)), fun l => (l, .absent), [Arg.int 1], none⟩
    [5] [5, 7] (.exc .valueError) ∧
    (Hint.extend .i32 Ret.none [5] ⟨fun l => (l ++ [7], .int (-1)), fun l => (l, .absent), [Arg.int 1], none⟩).list = [5, 7] :=
  ⟨rfl, rfl⟩

/-- C68, ObjectArrayList: if asking works, as with any iterator (C33). -/
theorem C68_ObjectArrayList_works (cfg : Cfg) (H : OHost) (fuel : Nat) (s s' : OState) (o : Iterable OState Obj)
    (h : Spec.HintWorks o s s') :
    ObjArray.step cfg H fuel s' (.extend (.iter o.items o.fin)) =
      (match (extendObj OVal.none s o).result with
        | .ok r => .ok (extendObj OVal.none s o).list r
        | .error (.exc e) => .exc (extendObj OVal.none s o).list e
        | .error .stopIteration => .ub .terminate) ∧
    ObjArray.step cfg H fuel s' (.iadd (.iter o.items o.fin)) =
      (match (extendObj OVal.self s o).result with
        | .ok r => .ok (extendObj OVal.self s o).list r
        | .error (.exc e) => .exc (extendObj OVal.self s o).list e
        | .error .stopIteration => .ub .terminate) ∧
    (extendObj OVal.none s o).left = [] := by
  obtain ⟨n, h⟩ := h
  simp only [extendObj, h, ObjArray.step, ObjArray.extend, ObjArray.iadd, ObjArray.extendIter]
  cases o.fin <;> exact ⟨rfl, rfl, rfl⟩

/-- C68, ObjectArrayList, exactly: if asking for the hint fails, the call does what Python's list does precisely if the
iterator has no items left, ends without an exception of its own (or one like that of the hint), and the hint did not raise
StopIteration. -/
theorem C68_ObjectArrayList_exact (r : OVal) (s s' : OState) (o : Iterable OState Obj) (x : Raised)
    (h : Spec.HintFails o s s' x) :
    extendObj r s o = Spec.hintFailed o s' x ↔
      o.items = [] ∧ (∀ e, o.fin = some e → x = .exc e) ∧ (o.fin = none → x ≠ .stopIteration) := by
  obtain ⟨len, hint, items, fin⟩ := o
  have h' : lengthHint _ s = _ := h
  simp only [extendObj, h', Spec.hintFailed]
  cases items with
  | nil =>
    cases fin with
    | some e => simp [eq_comm]
    | none =>
      by_cases hx : x = .stopIteration
      · simp [hx]
      · simp [hx]
  | cons a as => simp

/-- The negation for ObjectArrayList: with a failing hint and an item, the item is taken from the iterator and a reference to
it is never given back, although the list does not store it. -/
theorem C68_ObjectArrayList_leak (r : OVal) (s s' : OState) (o : Iterable OState Obj) (x : Raised) (a : Obj)
    (as : List Obj) (h : Spec.HintFails o s s' x) (ha : o.items = a :: as) (hm : s'.heap.imm a = false) :
    (extendObj r s o).result = .error x ∧ (extendObj r s o).left = as ∧ (extendObj r s o).list.vec = s'.vec ∧
    (extendObj r s o).list.heap.rc a = s'.heap.rc a + 1 := by
  obtain ⟨len, hint, items, fin⟩ := o
  have h' : lengthHint _ s = _ := h
  simp only at ha
  subst ha
  simp only [extendObj, h']
  refine ⟨trivial, trivial, trivial, ?_⟩
  simp [Heap.gain, hm, Heap.set]

example : Spec.HintFails ⟨fun s => (s, .raised (.exc .runtimeError)), fun s => (s, .absent), [(3 : Obj), 4], none⟩
    (⟨[1, 2], ⟨fun _ => false, fun _ => 1⟩⟩ : OState) ⟨[1, 2], ⟨fun _ => false, fun _ => 1⟩⟩ (.exc .runtimeError) := rfl

/-- The negation for IntLinkedList: no hint is asked for. Whatever the hint would have raised, `extend` and `+=` succeed
if all the items are good, and append them all. -/
theorem C68_linked_negation (bump : Bool) (r : Ret) (s : LState Int) (o : Iterable (LState Int) Arg)
    (hg : ∀ a ∈ o.items, ∃ v, toElem .i32 a = (v, none)) (hf : o.fin = none) :
    ∃ s', extendLinked bump r s o = .ok s' r ∧ s'.vals = s.vals ++ o.items.map fun a => (toElem .i32 a).1 := by
  obtain ⟨len, hint, items, fin⟩ := o
  simp only at hg hf
  subst hf
  have key : ∀ (xs : List Arg) (s : LState Int), (∀ a ∈ xs, ∃ v, toElem .i32 a = (v, none)) →
      ∃ s', LinkedList.pushLoop xs s = (s', none, true) ∧ s'.vals = s.vals ++ xs.map fun a => (toElem .i32 a).1 := by
    intro xs
    induction xs with
    | nil => exact fun s _ => ⟨s, rfl, by simp⟩
    | cons a as ih =>
      intro s h
      obtain ⟨v, hv⟩ := h a (List.mem_cons_self ..)
      obtain ⟨s', h1, h2⟩ := ih (s.push v) (fun b hb => h b (List.mem_cons_of_mem _ hb))
      refine ⟨s', ?_, ?_⟩
      · rw [LinkedList.pushLoop, hv]; exact h1
      · rw [h2]; simp [hv, LState.vals, LState.push]
  obtain ⟨s', h1, h2⟩ := key items s hg
  simp only [extendLinked, LinkedList.pushItems, h1]
  refine ⟨_, rfl, ?_⟩
  cases bump
  · simpa using h2
  · simpa [LState.bump, LState.vals] using h2

example : ∃ v, toElem .i32 (.int 5) = (v, none) := ⟨5, by decide⟩

end Verif.Props
