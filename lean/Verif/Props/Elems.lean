import Verif.Lemmas.Elems

/-!
# C56: methods of the elements of an object list may use the list

ObjectArrayList and ObjectLinkedList whose elements have `__del__`, `__eq__` and `__ne__`.
-/

namespace Verif.Props

open Verif.Elems

/-- `l.clear()` when the finalisers do not touch the list: the list ends empty and owns no reference, and exactly the elements
without any other reference are destroyed, in order, each when its last place is dropped. What is missing: finalisers that
use the list, see `C56_clear_read_null`, `C56_clear_append_freed` and `C56_clear_append_lost`. -/
theorem C56_clear_partial (f : Nat → Effect) (env : Env) (he : env.del = away f) (s : Shape) (w : World) (xs : List Nat)
    (h : AtRest w xs) :
    ∃ w', clear env xs.length s w = some (.ok w') ∧ AtRest w' [] ∧ view w' [] = Spec.clear (Spec.away f) (view w xs) :=
  clear_away he h (Nat.le_refl _)

/-- `del l[i]` when the finalisers do not touch the list. What is missing: `C56_delete_append_freed`. -/
theorem C56_delete_partial (f : Nat → Effect) (env : Env) (he : env.del = away f) (s : Shape) (w : World) (xs : List Nat)
    (h : AtRest w xs) (index : Int) :
    (∀ i : Nat, i < xs.length → (index = i ∨ index = (i : Int) - xs.length) →
      ∃ w', delete env s index w = .ok (w', none) ∧ AtRest w' (xs.take i ++ xs.drop (i + 1)) ∧
        view w' (xs.take i ++ xs.drop (i + 1)) = Spec.delete (Spec.away f) i (view w xs)) ∧
    (index < -xs.length ∨ (xs.length : Int) ≤ index → delete env s index w = .ok (w, some .indexError)) :=
  ⟨fun _ hi hx => delete_away he h hi hx, fun hi => delete_range h hi⟩

/-- Slice assignment of as many elements of another list as are replaced, when the finalisers do not touch the list and leave
the other list its elements. What is missing: `C56_set_slice_append_freed`. -/
theorem C56_set_slice_partial (f : Nat → Effect) (env : Env) (he : env.del = away f) (w : World) (xs ys : List Nat)
    (h : AtRest w xs) (i : Nat) (hi : i + ys.length ≤ xs.length) (hy : ∀ y ∈ ys, 1 ≤ w.ext y)
    (hf : ∀ x e y, y ∈ ys → 1 ≤ e y → 1 ≤ f x e y) :
    ∃ w', setSlice env i ys w = .ok w' ∧ AtRest w' (xs.take i ++ ys ++ xs.drop (i + ys.length)) ∧
      view w' (xs.take i ++ ys ++ xs.drop (i + ys.length)) = Spec.setSlice (Spec.away f) i ys (view w xs) :=
  setSlice_away he h hi hy hf

/-- `l == s` and `l != s` when the methods of the elements do not touch the list: the answer is that of Python's lists, and the
list is unchanged. What is missing: `C56_compare_clear` and `C56_compare_dead`. -/
theorem C56_compare_partial (f : Nat → Effect) (g : Rel → Nat → Nat → Effect) (P : Rel → Nat → Nat → Reply) (env : Env)
    (ha : Answers env f g P) (s : Shape) (r : Rel) (ys xs : List Nat) (w : World) (h : AtRest w xs) :
    ∃ w', compare env s r ys w = .ok (w', if ys.length = xs.length then Spec.compare (Spec.resolve P r) r xs ys
        else .ok (match r with | .eq => false | .ne => true)) ∧ AtRest w' xs :=
  compare_answers ha h

/-! ### A concrete list -/

/-- Cells 10, 11, …, filled with the given objects. -/
def worldOf (xs : List Nat) (spare : Nat) (ext : Nat → Nat) : World where
  cells := (List.range xs.length).map (10 + ·)
  mem := fun a => if 10 ≤ a then (xs[a - 10]?).map some else none
  fresh := 10 + xs.length
  spare := spare
  held := fun x => xs.count x
  ext := ext
  gone := []

theorem worldOf_atRest (xs : List Nat) (spare : Nat) (ext : Nat → Nat) : AtRest (worldOf xs spare ext) xs where
  mem := by
    apply List.ext_getElem
    · simp [worldOf]
    · intro i h1 h2
      simp only [worldOf, List.length_map, List.length_range] at h1
      simp [worldOf, h1]
  nodup := by
    simp only [worldOf]
    exact List.Pairwise.map _ (fun a b h => by simpa using h) List.nodup_range
  low := by
    intro a ha
    simp only [worldOf, List.mem_map, List.mem_range] at ha ⊢
    omega
  held := fun _ => rfl

/-- Two elements of the same object and one that is held elsewhere; destroying 4 drops the last reference to 9. -/
example : ∃ (f : Nat → Effect) (env : Env) (w : World), env.del = away f ∧ AtRest w [4, 5, 4] ∧
    (Spec.clear (Spec.away f) (view w [4, 5, 4])).gone = [4] ∧ (Spec.clear (Spec.away f) (view w [4, 5, 4])).ext 9 = 0 ∧
    w.ext 9 = 1 :=
  ⟨fun x e y => if x = 4 ∧ y = 9 then e y - 1 else e y,
    ⟨away fun x e y => if x = 4 ∧ y = 9 then e y - 1 else e y, fun _ _ _ w => .ok (w, .notImplemented)⟩,
    worldOf [4, 5, 4] 0 (fun x => if x = 5 ∨ x = 9 then 1 else 0), rfl, worldOf_atRest _ _ _, by decide, by decide, rfl⟩

example : ∃ (f : Nat → Effect) (w : World), AtRest w [4, 5, 6] ∧
    (Spec.delete (Spec.away f) 1 (view w [4, 5, 6])).gone = [5] ∧
    (Spec.delete (Spec.away f) 1 (view w [4, 5, 6])).elems = [4, 6] :=
  ⟨fun _ e => e, worldOf [4, 5, 6] 0 (fun _ => 0), worldOf_atRest _ _ _, by decide, by decide⟩

example : ∃ (f : Nat → Effect) (w : World), AtRest w [4, 5, 6] ∧ (∀ y ∈ [7, 8], 1 ≤ w.ext y) ∧
    (∀ x e y, y ∈ [7, 8] → 1 ≤ e y → 1 ≤ f x e y) ∧
    (Spec.setSlice (Spec.away f) 1 [7, 8] (view w [4, 5, 6])).elems = [4, 7, 8] ∧
    (Spec.setSlice (Spec.away f) 1 [7, 8] (view w [4, 5, 6])).gone = [5, 6] :=
  ⟨fun _ e => e, worldOf [4, 5, 6] 0 (fun x => if x = 7 ∨ x = 8 then 1 else 0), worldOf_atRest _ _ _, by decide,
    fun _ _ _ _ h => h, by decide, by decide⟩

/-- The second element only knows that it equals 7; 7 does not know 5, so 5 is asked. -/
example : ∃ (f : Nat → Effect) (g : Rel → Nat → Nat → Effect) (P : Rel → Nat → Nat → Reply) (env : Env) (w : World),
    Answers env f g P ∧ AtRest w [4, 7] ∧ (∃ w', compare env .linked .eq [4, 5] w = .ok (w', .ok true)) ∧
    (∃ w', compare env .array .eq [4, 6] w = .ok (w', .ok false)) := by
  let P : Rel → Nat → Nat → Reply := fun r x y => if r = .eq ∧ x = 5 ∧ y = 7 then .val true else .notImplemented
  let env : Env := ⟨away fun _ e => e, fun r x y w => .ok (w, P r x y)⟩
  have ha : Answers env (fun _ e => e) (fun _ _ _ e => e) P := ⟨rfl, fun _ _ _ _ => rfl⟩
  refine ⟨_, _, P, env, worldOf [4, 7] 0 fun _ => 0, ha, worldOf_atRest _ _ _, ?_, ?_⟩
  · obtain ⟨w', e, _⟩ := C56_compare_partial _ _ _ _ ha .linked .eq [4, 5] _ _ (worldOf_atRest [4, 7] 0 fun _ => 0)
    exact ⟨w', e⟩
  · obtain ⟨w', e, _⟩ := C56_compare_partial _ _ _ _ ha .array .eq [4, 6] _ _ (worldOf_atRest [4, 7] 0 fun _ => 0)
    exact ⟨w', e⟩

/-! ### Where the code fails -/

/-- Clearing a list whose second element, on its destruction, looks at the first place of the list: it finds a null pointer.
A Python list is empty by then. -/
theorem C56_clear_read_null (env : Env) (s : Shape) (w : World) (x y : Nat) (xs : List Nat) (k : Nat)
    (h : AtRest w (x :: y :: xs)) (hx : 0 < w.ext x) (hy : w.ext y = 0) (hyx : y ≠ x) (hyxs : y ∉ xs)
    (hd : env.del y = Elems.read 0) : clear env (k + 2) s w = some (.error .nullDeref) := by
  obtain ⟨a, b, cs, hc⟩ : ∃ a b cs, w.cells = a :: b :: cs := by
    have := congrArg List.length h.mem
    match hw : w.cells with
    | [] | [_] => rw [hw] at this; simp at this
    | a :: b :: cs => exact ⟨a, b, cs, rfl⟩
  have hm := h.mem
  rw [hc] at hm
  simp only [List.map_cons, List.cons.injEq] at hm
  obtain ⟨ma, mb, _⟩ := hm
  have hn := h.nodup
  rw [hc] at hn
  have hab : b ≠ a := by
    rintro rfl
    simp at hn
  have hhx : w.held x ≠ 0 := by rw [h.held]; simp
  have hhy : w.held y = 1 := by
    rw [h.held, List.count_cons_of_ne (Ne.symm hyx), List.count_cons_self, List.count_eq_zero_of_not_mem hyxs]
  have e1 : safeDecref env a w = .ok { w with held := put w.held x (w.held x - 1), mem := put w.mem a (some none) } := by
    simp only [safeDecref, ma, release, if_neg hhx]
    rw [if_neg (by omega)]
    simp [ma]
  have e2 : safeDecref env b { w with held := put w.held x (w.held x - 1), mem := put w.mem a (some none) } =
      .error .nullDeref := by
    have m2 : put w.mem a (some none) b = some (some y) := by rw [put_ne _ _ hab, mb]
    have h2 : put w.held x (w.held x - 1) y = 1 := by rw [put_ne _ _ hyx, hhy]
    simp only [safeDecref, m2, release, h2, if_neg (by omega : ¬ (1 = 0))]
    rw [if_pos (by omega), hd]
    simp [Elems.read, hc]
  cases s with
  | array =>
    have e : decrefAll env (a :: b :: cs) w = .error .nullDeref := by simp only [decrefAll, e1, e2]
    rw [clear, hc, e]
  | linked =>
    have hf : following a w.cells = some b := by rw [hc]; simp [following]
    simp only [clear, hc, List.head?_cons]
    rw [walk]
    simp only [e1, hc, List.mem_cons, true_or, if_true]
    rw [← hc, hf, walk]
    simp only [e2]

example : ∃ (env : Env) (w : World), AtRest w [4, 5] ∧ 0 < w.ext 4 ∧ w.ext 5 = 0 ∧ env.del 5 = Elems.read 0 :=
  ⟨⟨fun _ => Elems.read 0, fun _ _ _ w => .ok (w, .notImplemented)⟩, worldOf [4, 5] 0 (fun x => if x = 4 then 1 else 0),
    worldOf_atRest _ _ _, by decide, rfl, rfl⟩

/-- Dropping the first reference to an element of a full array whose finaliser appends: the block has moved when the null
pointer is written. -/
theorem safeDecref_append_freed (env : Env) (w : World) (xs : List Nat) (i x z : Nat) (a : Nat) (h : AtRest w xs)
    (hi : xs[i]? = some x) (ha : w.cells[i]? = some a) (hx : w.ext x = 0) (hc : xs.count x = 1) (hs : w.spare = 0)
    (hd : env.del x = append .array z) : safeDecref env a w = .error .useAfterFree := by
  have hlen : w.cells.length = xs.length := by simpa using congrArg List.length h.mem
  have ma : w.mem a = some (some x) := by
    have := congrArg (·[i]?) h.mem
    simpa [List.getElem?_map, ha, hi] using this
  have hl := h.low a (List.mem_of_getElem? ha)
  simp only [safeDecref, ma, release, h.held, hc, if_neg (by omega : ¬ (1 = 0))]
  rw [if_pos (by omega), hd]
  have hna : a ∉ (List.range (w.cells.length + 1)).map (w.fresh + ·) := by
    simp only [List.mem_map, not_exists, not_and]
    intro b _
    omega
  simp only [append, hs, if_true]
  rw [fill_other hna, if_pos (List.mem_of_getElem? ha)]

/-- Clearing a full array whose first element appends to it on its destruction: a freed block is written. -/
theorem C56_clear_append_freed (env : Env) (w : World) (x z : Nat) (xs : List Nat) (k : Nat) (h : AtRest w (x :: xs))
    (hx : w.ext x = 0) (hxs : x ∉ xs) (hs : w.spare = 0) (hd : env.del x = append .array z) :
    clear env k .array w = some (.error .useAfterFree) := by
  obtain ⟨a, cs, hc⟩ : ∃ a cs, w.cells = a :: cs := by
    have := congrArg List.length h.mem
    match hw : w.cells with
    | [] => rw [hw] at this; simp at this
    | a :: cs => exact ⟨a, cs, rfl⟩
  have e := safeDecref_append_freed env w (x :: xs) 0 x z a h (by simp) (by simp [hc]) hx
    (by simp [List.count_eq_zero_of_not_mem hxs]) hs hd
  simp [clear, hc, decrefAll, e]

/-- Deleting an element of a full array that appends to the list on its destruction: a freed block is written. -/
theorem C56_delete_append_freed (env : Env) (w : World) (x z i : Nat) (xs : List Nat) (h : AtRest w xs)
    (hi : xs[i]? = some x) (hx : w.ext x = 0) (hc : xs.count x = 1) (hs : w.spare = 0) (hd : env.del x = append .array z) :
    delete env .array i w = .error .useAfterFree := by
  have hlen : w.cells.length = xs.length := by simpa using congrArg List.length h.mem
  have hlt : i < xs.length := (List.getElem?_eq_some_iff.mp hi).1
  have ha : w.cells[i]? = some w.cells[i] := List.getElem?_eq_getElem (by omega)
  have e := safeDecref_append_freed env w xs i x z _ h hi ha hx hc hs hd
  simp only [delete]
  rw [if_neg (by omega), if_neg (by omega)]
  simp only [Int.toNat_natCast, ha, e]

/-- Replacing the first element of a full array that appends to the list on its destruction: a freed block is written. -/
theorem C56_set_slice_append_freed (env : Env) (w : World) (x y z i : Nat) (xs ys : List Nat) (h : AtRest w xs)
    (hi : xs[i]? = some x) (hx : w.ext x = 0) (hc : xs.count x = 1) (hs : w.spare = 0) (hd : env.del x = append .array z) :
    setSlice env i (y :: ys) w = .error .useAfterFree := by
  have hlen : w.cells.length = xs.length := by simpa using congrArg List.length h.mem
  have hlt : i < xs.length := (List.getElem?_eq_some_iff.mp hi).1
  have ha : w.cells[i]? = some w.cells[i] := List.getElem?_eq_getElem (by omega)
  have e := safeDecref_append_freed env w xs i x z _ h hi ha hx hc hs hd
  have hdr : w.cells.drop i = w.cells[i] :: w.cells.drop (i + 1) := List.drop_eq_getElem_cons (by omega)
  have hc : copyRefs env ((w.cells.drop i).take (y :: ys).length) (y :: ys) w = .error .useAfterFree := by
    rw [hdr, List.length_cons, List.take_succ_cons, copyRefs, e]
  simp only [setSlice, hc]

example : ∃ (env : Env) (w : World), AtRest w [4, 5] ∧ w.ext 4 = 0 ∧ w.spare = 0 ∧ env.del 4 = append .array 9 :=
  ⟨⟨fun _ => append .array 9, fun _ _ _ w => .ok (w, .notImplemented)⟩, worldOf [4, 5] 0 (fun _ => 0),
    worldOf_atRest _ _ _, rfl, rfl, rfl⟩

/-- Clearing a linked list with one element that appends `z` on its destruction: the list ends empty, and the reference to `z`
is dropped with it. In Python the list is empty before, and ends as `[z]`. -/
theorem C56_clear_append_lost (env : Env) (w : World) (x z : Nat) (k : Nat) (h : AtRest w [x]) (hx : w.ext x = 0)
    (hz : 0 < w.ext z) (hzx : z ≠ x) (hd : env.del x = append .linked z) (del : Spec.Dels) (hd' : del x = Spec.append z) :
    (∃ w', clear env (k + 2) .linked w = some (.ok w') ∧ AtRest w' [] ∧ w'.ext = w.ext) ∧
      (Spec.clear del (view w [x])).elems = [z] := by
  obtain ⟨a, hc⟩ : ∃ a, w.cells = [a] := by
    have := congrArg List.length h.mem
    match hw : w.cells with
    | [] | _ :: _ :: _ => rw [hw] at this; simp at this
    | [a] => exact ⟨a, rfl⟩
  have hm := h.mem
  rw [hc] at hm
  simp only [List.map_cons, List.cons.injEq] at hm
  have ma := hm.1
  have hl := h.low a (by rw [hc]; simp)
  have hhx : w.held x = 1 := by rw [h.held]; simp
  have hhz : w.held z = 0 := by rw [h.held, List.count_eq_zero_of_not_mem (by simpa using hzx)]
  have hfa : w.fresh ≠ a := by omega
  constructor
  · let w1 : World :=
      { w with
        cells := [a, w.fresh]
        mem := put (put w.mem w.fresh (some (some z))) a (some none)
        fresh := w.fresh + 1
        held := put (put w.held x 0) z 1
        gone := w.gone ++ [x] }
    have e1 : safeDecref env a w = .ok w1 := by
      simp only [safeDecref, ma, release, hhx, if_neg (by omega : ¬ (1 = 0))]
      rw [if_pos (by omega), hd]
      have hz0 : put w.held x 0 z = 0 := by rw [put_ne _ _ hzx, hhz]
      have hma : put w.mem w.fresh (some (some z)) a = some (some x) := by rw [put_ne _ _ (Ne.symm hfa), ma]
      simp only [append, hma, hz0, hc]
      rfl
    let w2 : World := { w1 with held := put w1.held z 0, mem := put w1.mem w.fresh (some none) }
    have e2 : safeDecref env w.fresh w1 = .ok w2 := by
      have m1 : w1.mem w.fresh = some (some z) := by
        show put (put w.mem w.fresh (some (some z))) a (some none) w.fresh = _
        rw [put_ne _ _ hfa, put_self]
      have h1 : w1.held z = 1 := put_self _ _ _
      simp only [safeDecref, m1, release, h1, if_neg (by omega : ¬ (1 = 0))]
      rw [if_neg (by show ¬ (1 - 1 + w.ext z = 0); omega)]
      simp only [m1]
      rfl
    refine ⟨empty w2, ?_, empty_atRest ?_, rfl⟩
    · simp only [clear, hc, List.head?_cons]
      rw [walk]
      simp only [e1]
      have hf1 : following a w1.cells = some w.fresh := by simp [w1, following]
      have hf2 : following w.fresh w2.cells = none := by
        show following w.fresh [a, w.fresh] = none
        simp [following, Ne.symm hfa]
      rw [if_pos (by simp [w1]), hf1, walk]
      simp only [e2]
      rw [if_pos (by simp [w2, w1]), hf2]
      simp [walk]
    · intro y
      show put (put (put w.held x 0) z 1) z 0 y = 0
      by_cases c : y = z
      · subst c; rw [put_self]
      · rw [put_ne _ _ c, put_ne _ _ c]
        by_cases d : y = x
        · subst d; rw [put_self]
        · rw [put_ne _ _ d, h.held, List.count_eq_zero_of_not_mem (by simpa using d)]
  · simp [Spec.clear, view, Spec.drop, hx, hd', Spec.append]

example : ∃ (env : Env) (w : World), AtRest w [4] ∧ w.ext 4 = 0 ∧ 0 < w.ext 9 ∧ env.del 4 = append .linked 9 :=
  ⟨⟨fun _ => append .linked 9, fun _ _ _ w => .ok (w, .notImplemented)⟩, worldOf [4] 0 (fun x => if x = 9 then 1 else 0),
    worldOf_atRest _ _ _, rfl, by decide, rfl⟩

/-- `__eq__` that empties the list and then answers. -/
def clearThen (del : Nat → World → Except UB World) (k : Nat) (s : Shape) (a : Reply) (w : World) : Except UB (World × Reply) :=
  match clear ⟨del, fun _ _ _ w => .ok (w, .notImplemented)⟩ k s w with
  | none => .ok (w, a)
  | some (.error u) => .error u
  | some (.ok w) => .ok (w, a)

/-- What is left after the first comparison has emptied the list: the reference to the item. -/
theorem clearThen_busy (w : World) (y : Nat) (xs : List Nat) (s : Shape) (a : Reply) (h : AtRest w xs) :
    ∃ w', clearThen (away fun _ e => e) xs.length s a { w with held := put w.held y (w.held y + 1) } = .ok (w', a) ∧
      w'.cells = [] ∧ (∀ z, w'.held z = [y].count z) ∧ w'.ext = w.ext := by
  obtain ⟨w', e, c, _, hh, v⟩ := clear_busy (f := fun _ e => e)
    (env := ⟨away fun _ e => e, fun _ _ _ w => .ok (w, .notImplemented)⟩) rfl (s := s) (es := [y])
    (w := { w with held := put w.held y (w.held y + 1) }) (xs := xs) (k := xs.length) h.mem h.nodup
    (by
      intro z
      show put w.held y (w.held y + 1) z = _
      by_cases c : z = y
      · subst c; rw [put_self, h.held]; simp
      · rw [put_ne _ _ c, h.held, List.count_eq_zero_of_not_mem (l := [y]) (by simpa using c)]; simp)
    (Nat.le_refl _)
  refine ⟨w', by simp only [clearThen, e], c, hh, ?_⟩
  have := congrArg Spec.View.ext v
  rw [drop_still] at this
  exact this

/-- Comparing a list of at least two elements, where comparing the first one empties the list and finds it equal: the array
is read behind its end, the linked list goes on from a freed node. A Python list stops and answers. -/
theorem C56_compare_clear (env : Env) (s : Shape) (r : Rel) (w : World) (x y y' : Nat) (xs ys : List Nat)
    (h : AtRest w (x :: xs)) (hl : (y' :: ys).length = xs.length) (hxy : x ≠ y) (hd : env.del = away fun _ e => e)
    (hc : env.cmp r x y = clearThen env.del (x :: xs).length s (.val (r == .eq))) :
    compare env s r (y :: y' :: ys) w = .error (match s with | .array => .outOfBounds | .linked => .useAfterFree) := by
  obtain ⟨a, cs, hcs⟩ : ∃ a cs, w.cells = a :: cs := by
    have := congrArg List.length h.mem
    match hw : w.cells with
    | [] => rw [hw] at this; simp at this
    | a :: cs => exact ⟨a, cs, rfl⟩
  have hlen : w.cells.length = (x :: xs).length := by simpa using congrArg List.length h.mem
  have hm := h.mem
  rw [hcs] at hm
  simp only [List.map_cons, List.cons.injEq] at hm
  obtain ⟨w1, e1, c1, h1, x1⟩ := clearThen_busy w y (x :: xs) s (.val (r == .eq)) h
  obtain ⟨w2, e2, f2, _, _, _⟩ := release_away hd (x := y) (xs := []) (es := []) (w := w1) (by simpa using h1)
  have hcur : current s 0 w.cells.head? { w with held := put w.held y (w.held y + 1) } = .ok x := by
    cases s <;> simp [current, hcs, hm.1]
  have hr : rich env r x y { w with held := put w.held y (w.held y + 1) } = .ok (w1, .ok (r == .eq)) := by
    rw [rich, if_neg hxy, hc, hd, e1]
  have c2 : w2.cells = [] := by rw [f2.cells, c1]
  rw [Elems.compare, if_neg (by rw [hlen]; simp only [List.length_cons] at *; omega), compareLoop]
  simp only [hcur, hr, e2, if_true]
  cases s with
  | array => simp [advance, compareLoop, current, c2]
  | linked => simp [advance, hcs, c2]

/-- Comparing a list whose first element is held only by the list, where its `__eq__` empties the list and does not know the
answer: the destroyed object is passed on to the other one's `__eq__`. Python's lists hold a reference meanwhile. -/
theorem C56_compare_dead (env : Env) (s : Shape) (r : Rel) (w : World) (x y : Nat) (xs ys : List Nat)
    (h : AtRest w (x :: xs)) (hl : ys.length = xs.length) (hxy : x ≠ y) (hx : w.ext x = 0) (hd : env.del = away fun _ e => e)
    (hc : env.cmp r x y = clearThen env.del (x :: xs).length s .notImplemented) :
    compare env s r (y :: ys) w = .error .useAfterFree := by
  obtain ⟨a, cs, hcs⟩ : ∃ a cs, w.cells = a :: cs := by
    have := congrArg List.length h.mem
    match hw : w.cells with
    | [] => rw [hw] at this; simp at this
    | a :: cs => exact ⟨a, cs, rfl⟩
  have hlen : w.cells.length = (x :: xs).length := by simpa using congrArg List.length h.mem
  have hm := h.mem
  rw [hcs] at hm
  simp only [List.map_cons, List.cons.injEq] at hm
  obtain ⟨w1, e1, c1, h1, x1⟩ := clearThen_busy w y (x :: xs) s .notImplemented h
  have hcur : current s 0 w.cells.head? { w with held := put w.held y (w.held y + 1) } = .ok x := by
    cases s <;> simp [current, hcs, hm.1]
  have hr : rich env r x y { w with held := put w.held y (w.held y + 1) } = .error .useAfterFree := by
    rw [rich, if_neg hxy, hc, hd, e1]
    simp only
    rw [if_pos]
    rw [h1, x1, hx, List.count_eq_zero_of_not_mem (by simpa using hxy)]
  rw [Elems.compare, if_neg (by rw [hlen]; simp only [List.length_cons] at *; omega), compareLoop]
  simp only [hcur, hr]

example : ∃ (env : Env) (w : World), AtRest w [4, 5] ∧ w.ext 4 = 0 ∧ env.del = away (fun _ e => e) ∧
    env.cmp .eq 4 6 = clearThen env.del 2 .linked .notImplemented ∧
    env.cmp .eq 4 7 = clearThen env.del 2 .linked (.val true) :=
  ⟨⟨away fun _ e => e, fun _ _ y => clearThen (away fun _ e => e) 2 .linked (if y = 6 then .notImplemented else .val true)⟩,
    worldOf [4, 5] 0 (fun _ => 0), worldOf_atRest _ _ _, rfl, rfl, rfl, rfl⟩

end Verif.Props
