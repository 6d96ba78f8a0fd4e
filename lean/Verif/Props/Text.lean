import Verif.Lemmas.Text

/-!
# C59: `repr` of object lists

ObjectArrayList and ObjectLinkedList with any objects in them, other lists included.
-/

namespace Verif.Props

open Verif.Elems (Shape)
open Verif.Text

/-- `repr(o)` when no list contains itself and the elements' `__repr__` replaces elements at most: text or exception are those
of Python's lists with the same contents, at every nesting depth (beyond the limit of nested calls both raise
RecursionError), and so are the lists left behind. What is missing: `C59_cycle_negation`, `C59_clear_array`,
`C59_clear_linked` and `C59_shrink_repeats`. -/
theorem C59_repr_partial (kind : Nat → Option Shape) (rank : Nat → Nat) (code : Code) (code' : Spec.Code)
    (ht : Tame kind rank code code') (fuel limit o : Nat) (w : World) (hf : ∀ o, (w o).length < fuel) (hn : NodesOk w)
    (hl : Spec.Layered (fun o => (kind o).isSome) rank (view w)) :
    ∃ w' a, Text.repr kind code fuel limit o w = some (.ok (w', a)) ∧
      Spec.repr (fun o => (kind o).isSome) code' fuel limit [] o (view w) = some (view w', a) := by
  obtain ⟨w', a, h1, h2, _⟩ := repr_sim ht hf limit [] o w ⟨hn, hl, .refl w⟩ (by simp)
  exact ⟨w', a, h1, h2⟩

/-- A list whose elements have the texts `ts` has the text `[t, t, …]`, in Python. -/
theorem C59_text (isList : Nat → Bool) (code : Spec.Code) (fuel limit o : Nat) (busy : List Nat) (v : View) (ts : List Str)
    (hl : isList o = true) (hb : o ∉ busy) (hf : (v o).length < fuel)
    (h : (v o).map (fun x => Spec.repr isList code fuel limit (o :: busy) x v) = ts.map fun t => some (v, .ok t)) :
    Spec.repr isList code fuel (limit + 1) busy o v = some (v, .ok (Spec.bracketed ts)) := by
  have hlen := congrArg List.length h
  simp only [List.length_map] at hlen
  rw [Spec.repr, if_pos hl, if_neg hb, loop_texts ts fuel 0 "[".toList (by simpa using h) (by omega), ← joined_zero]

/-- The lists of the examples: list 0 (array) is `[10, list 1, 11]`, list 1 (linked) is `[11]`, list 2 contains itself. -/
def textKind : Nat → Option Shape
  | 0 => some .array
  | 1 => some .linked
  | 2 => some .linked
  | _ => none

/-- Contents for `textKind`. -/
def textWorld : World
  | 0 => [(0, 10), (1, 1), (2, 11)]
  | 1 => [(0, 11)]
  | 2 => [(0, 10), (1, 2)]
  | _ => []

/-- Element 10 writes x, the others write y. -/
def textCode : Code := fun o w => (w, .ok (if o = 10 then "x" else "y").toList)

example : Text.repr textKind textCode 9 9 0 textWorld = some (.ok (textWorld, .ok "[x, [y], y]".toList)) := rfl

example : Tame (fun o => if o = 2 then none else textKind o) (fun o => 3 - o) textCode
      (fun o v => (v, .ok (if o = 10 then "x" else "y").toList)) ∧
    Spec.Layered (fun o => (if o = 2 then none else textKind o : Option Shape).isSome) (fun o => 3 - o) (view textWorld) := by
  refine ⟨⟨fun _ w => .refl w, fun _ _ h => h, fun _ _ => rfl⟩, ?_⟩
  intro o x ho hx hxl
  match o with
  | 0 => simp [view, textWorld] at hx; rcases hx with rfl | rfl | rfl <;> simp [textKind] at *
  | 1 => simp [view, textWorld] at hx; subst hx; simp [textKind] at hxl
  | 2 => simp at ho
  | n + 3 => simp [view, textWorld] at hx

/-! ### Lists that contain themselves -/

/-- A list from which one can go from list to list without end (lists `C`) has no text, however many nested calls are allowed:
`repr` raises RecursionError, although no element's `__repr__` raises anything. -/
theorem C59_cycle_negation (kind : Nat → Option Shape) (code : Code) (T : Nat → Str) (hT : ∀ o w, code o w = (w, .ok (T o)))
    (fuel limit : Nat) (w : World) (hf : ∀ o, (w o).length ≤ fuel) (hn : NodesOk w) (C : Nat → Prop)
    (hC : ∀ o, C o → (kind o).isSome = true ∧ ∃ x ∈ view w o, C x) (o : Nat) (ho : C o) :
    Text.repr kind code fuel limit o w = some (.ok (w, .error .recursion)) :=
  (repr_cycle hT hf hn C hC limit).2 o ho

/-- The list `xs + [l]`, where `l` is the list itself: Python writes `[...]` in the place of the list. -/
theorem C59_cycle_python (isList : Nat → Bool) (code : Spec.Code) (T : Nat → Str) (hT : ∀ o v, code o v = (v, .ok (T o)))
    (fuel limit l : Nat) (v : View) (xs : List Nat) (hl : isList l = true) (hx : ∀ x ∈ xs, isList x = false)
    (hv : v l = xs ++ [l]) (hf : xs.length + 1 < fuel) :
    Spec.repr isList code fuel (limit + 2) [] l v =
      some (v, .ok (Spec.bracketed (xs.map T ++ ["[...]".toList]))) := by
  refine C59_text isList code fuel (limit + 1) l [] v _ hl (by simp) (by simpa [hv] using hf) ?_
  rw [hv, List.map_append, List.map_append]
  congr 1
  · rw [List.map_map]
    refine List.map_congr_left fun x hxm => ?_
    rw [Spec.repr, if_neg (by simp [hx x hxm]), hT]
    rfl
  · simp [Spec.repr, hl]

example : (∀ o, o = 2 → (textKind o).isSome = true ∧ ∃ x ∈ view textWorld o, x = 2) ∧
    Spec.repr (fun o => (textKind o).isSome) (fun _ v => (v, .ok "x".toList)) 9 9 [] 2 (view textWorld) =
      some (view textWorld, .ok "[x, [...]]".toList) := by
  refine ⟨by rintro o rfl; exact ⟨rfl, 2, by decide, rfl⟩, ?_⟩
  exact C59_cycle_python _ _ (fun _ => "x".toList) (fun _ _ => rfl) 9 7 2 (view textWorld) [10] rfl (by decide) rfl (by decide)

/-! ### Elements that change the list -/

/-- The list `o` is emptied. -/
def emptied (o : Nat) (w : World) : World := fun l => if l = o then [] else w l

/-- An ObjectArrayList of two or more elements whose first element clears it: elements behind the end are read, where Python
has the text of one element. -/
theorem C59_clear_array (kind : Nat → Option Shape) (code : Code) (fuel limit o a x : Nat) (rest : List (Nat × Nat)) (t : Str)
    (w : World) (hk : kind o = some .array) (hx : kind x = none) (hw : w o = (a, x) :: rest) (hr : rest ≠ [])
    (hc : code x w = (emptied o w, .ok t)) :
    Text.repr kind code (fuel + 2) (limit + 2) o w = some (.error .outOfBounds) ∧
    (∀ code' : Spec.Code, code' x (view w) = (view (emptied o w), .ok t) →
      Spec.repr (fun o => (kind o).isSome) code' (fuel + 2) (limit + 2) [] o (view w) =
        some (view (emptied o w), .ok (Spec.bracketed [t]))) := by
  have hpos : 0 < rest.length := List.length_pos_iff.2 hr
  have hrep : Text.repr kind code (fuel + 2) (limit + 1) x w = some (.ok (emptied o w, .ok t)) := by
    rw [Text.repr, hx]
    dsimp only
    rw [hc]
  constructor
  · rw [Text.repr, hk]
    dsimp only
    rw [if_neg (by simp [hw]), arrayLoop.eq_def]
    dsimp only
    rw [if_pos (.inr (by simp [hw, hpos])), hw]
    simp only [List.getElem?_cons_zero]
    rw [hrep]
    dsimp only
    rw [arrayLoop.eq_def]
    simp [emptied]
  · intro code' hc'
    have e0 : (view w o)[0]? = some x := by simp [view, hw]
    have e1 : (view (emptied o w) o)[1]? = none := by simp [view, emptied]
    have hno : (fun o => (kind o).isSome) x = false := by simp [hx]
    rw [Spec.repr, if_pos (by simp [hk]), if_neg (by simp), Spec.loop, e0]
    dsimp only
    rw [Spec.repr, if_neg (by simp [hx]), hc']
    dsimp only
    rw [Spec.loop, e1]
    simp [Spec.bracketed]

/-- The same for ObjectLinkedList: the iterator is at a node that has been freed. -/
theorem C59_clear_linked (kind : Nat → Option Shape) (code : Code) (fuel limit o a x : Nat) (rest : List (Nat × Nat)) (t : Str)
    (w : World) (hk : kind o = some .linked) (hx : kind x = none) (hw : w o = (a, x) :: rest) (hr : rest ≠ [])
    (hc : code x w = (emptied o w, .ok t)) :
    Text.repr kind code (fuel + 2) (limit + 2) o w = some (.error .useAfterFree) := by
  have hpos : 0 < rest.length := List.length_pos_iff.2 hr
  have hrep : Text.repr kind code (fuel + 2) (limit + 1) x w = some (.ok (emptied o w, .ok t)) := by
    rw [Text.repr, hx]
    dsimp only
    rw [hc]
  rw [Text.repr, hk]
  dsimp only
  rw [if_neg (by simp [hw]), linkedLoop.eq_def]
  dsimp only
  rw [if_pos (.inr (by simp [hw, hpos])), hw]
  simp only [List.head?_cons, Option.map_some, List.lookup, beq_self_eq_true]
  rw [hrep]
  simp [emptied]

/-- The list `o` is cut to its first element. -/
def cut (o : Nat) (w : World) : World := fun l => if l = o then (w l).take 1 else w l

/-- A list of two or more elements whose first element removes the others (and has the text `t`): the text shows that element
twice, in both classes, where Python shows it once. -/
theorem C59_shrink_repeats (kind : Nat → Option Shape) (code : Code) (fuel limit o a x : Nat) (rest : List (Nat × Nat))
    (t : Str) (s : Shape) (w : World) (hk : kind o = some s) (hx : kind x = none) (hw : w o = (a, x) :: rest) (hr : rest ≠ [])
    (hc : code x w = (cut o w, .ok t)) (hc2 : code x (cut o w) = (cut o w, .ok t)) :
    Text.repr kind code (fuel + 2) (limit + 2) o w = some (.ok (cut o w, .ok (Spec.bracketed [t, t]))) ∧
    (∀ code' : Spec.Code, code' x (view w) = (view (cut o w), .ok t) →
      Spec.repr (fun o => (kind o).isSome) code' (fuel + 2) (limit + 2) [] o (view w) =
        some (view (cut o w), .ok (Spec.bracketed [t]))) := by
  have hpos : 0 < rest.length := List.length_pos_iff.2 hr
  have hrep : Text.repr kind code (fuel + 2) (limit + 1) x w = some (.ok (cut o w, .ok t)) := by
    rw [Text.repr, hx]
    dsimp only
    rw [hc]
  have hrep2 : Text.repr kind code (fuel + 2) (limit + 1) x (cut o w) = some (.ok (cut o w, .ok t)) := by
    rw [Text.repr, hx]
    dsimp only
    rw [hc2]
  have hcut : cut o w o = [(a, x)] := by simp [cut, hw]
  have hfin : ∀ text, finish (Text.repr kind code (fuel + 2) (limit + 1)) o text (cut o w) =
      some (.ok (cut o w, .ok (text ++ t ++ "]".toList))) := by
    intro text
    rw [finish, hcut]
    simp only [List.getLast?_singleton]
    rw [hrep2]
  constructor
  · rw [Text.repr, hk]
    dsimp only
    rw [if_neg (by simp [hw])]
    cases s with
    | array =>
      dsimp only
      rw [arrayLoop.eq_def]
      dsimp only
      rw [if_pos (.inr (by simp [hw, hpos])), hw]
      simp only [List.getElem?_cons_zero]
      rw [hrep]
      dsimp only
      rw [arrayLoop.eq_def]
      dsimp only
      rw [if_neg (by simp [hcut]), hfin]
      simp [Spec.bracketed]
    | linked =>
      dsimp only
      rw [linkedLoop.eq_def]
      dsimp only
      rw [if_pos (.inr (by simp [hw, hpos])), hw]
      simp only [List.head?_cons, Option.map_some, List.lookup, beq_self_eq_true]
      rw [hrep]
      simp only [hcut, List.lookup, beq_self_eq_true]
      rw [linkedLoop.eq_def]
      dsimp only
      rw [if_neg (by simp [hcut]), hfin]
      simp [Spec.bracketed]
  · intro code' hc'
    have e0 : (view w o)[0]? = some x := by simp [view, hw]
    have e1 : (view (cut o w) o)[1]? = none := by simp [view, hcut]
    rw [Spec.repr, if_pos (by simp [hk]), if_neg (by simp), Spec.loop, e0]
    dsimp only
    rw [Spec.repr, if_neg (by simp [hx]), hc']
    dsimp only
    rw [Spec.loop, e1]
    simp [Spec.bracketed]

example : Text.repr textKind (fun _ w => (emptied 0 w, .ok "x".toList)) 9 9 0 textWorld = some (.error .outOfBounds) ∧
    Text.repr textKind (fun _ w => (emptied 2 w, .ok "x".toList)) 9 9 2 textWorld = some (.error .useAfterFree) :=
  ⟨(C59_clear_array textKind _ 7 7 0 0 10 [(1, 1), (2, 11)] _ textWorld rfl rfl rfl (by simp) rfl).1,
    C59_clear_linked textKind _ 7 7 2 0 10 [(1, 2)] _ textWorld rfl rfl rfl (by simp) rfl⟩

example : Text.repr textKind (fun _ w => (cut 0 w, .ok "x".toList)) 9 9 0 textWorld =
    some (.ok (cut 0 textWorld, .ok "[x, x]".toList)) := by
  have h : cut 0 (cut 0 textWorld) = cut 0 textWorld := by
    funext l
    by_cases e : l = 0 <;> simp [cut, e]
    rfl
  exact (C59_shrink_repeats textKind _ 7 7 0 0 10 [(1, 1), (2, 11)] "x".toList .array textWorld rfl rfl rfl (by simp) rfl
    (by rw [h])).1

end Verif.Props
