import Verif.Lemmas.Get

/-!
# C06, C07: slices of IntArrayList / BigIntArrayList
-/

namespace Verif.Props

open Verif ArrayList

/-! ## C06: reading a slice -/

/-- C06: for every start, stop and step (including None, negative, huge values and `__index__` objects) the
result consists of the objects `l[p]` for exactly the positions `p` Python's slice addresses, in its
order; a zero step is a ValueError, a non-integer a TypeError. Never out of bounds. The length
hypothesis holds for every `std::vector`. -/
theorem C06_slice_read (cfg : Cfg) (K : Kind) (l : List Int) (s : SliceArg) (hn : (l.length : Int) ≤ ssizeMax) :
    (∀ i j k, Spec.fields s = .ok (i, j, k) → ∃ ps : List PyLong,
      step cfg K l (.get (.slice s)) = .ok l (.pylist ps) ∧
      ps.length = (Spec.positions l.length i j k).length ∧
      ∀ t p : Nat, (Spec.positions l.length i j k)[t]? = some p →
        ∃ b, ps[t]? = some b ∧ step cfg K l (.get (.idx (.int p))) = .ok l (.int b)) ∧
    (∀ e, Spec.fields s = .error e → step cfg K l (.get (.slice s)) = .exc l e) := by
  have hs : step cfg K l (.get (.slice s)) = subscript cfg K l (.slice s) := rfl
  rw [hs, slice_read cfg K l s hn]
  constructor
  · intro i j k hf
    have hpos := positions_lt l.length i j k
    refine ⟨(Spec.pick l (Spec.positions l.length i j k)).map (box K cfg.py), ?_, ?_, ?_⟩
    · rw [hf]
    · rw [pick_eq_map l 0 _ hpos]; simp
    · intro t p ht
      have hp := hpos p (List.mem_of_getElem? ht)
      refine ⟨box K cfg.py (l.getD p 0), ?_, get_at cfg K l p hn hp⟩
      rw [pick_eq_map l 0 _ hpos, List.map_map, List.getElem?_map, ht]; rfl
  · intro e hf
    rw [hf]

example : Spec.fields ⟨some (.int 5), none, some (.int (-2))⟩ = .ok (some 5, none, -2) ∧
    Spec.positions 4 (some 5) none (-2) = [3, 1] := ⟨rfl, by decide⟩

/-! ## C07: contiguous slice assignment -/

/-- C07 for replacements that are another list of the class (values that survive boxing), or a list, tuple
or sized sequence of in-range integers: exactly Python's result, whatever the lengths. Missing: the list
itself, generic iterables, unsized sequences, deletion, unconvertible elements (negations below, C08). -/
theorem C07_slice_assign_partial (cfg : Cfg) (K : Kind) (l : List Int) (s : SliceArg) (src : Src)
    (i j : Option Int) (hn : (l.length : Int) ≤ ssizeMax) (hs : Spec.fields s = .ok (i, j, 1))
    (hsrc : SrcGood cfg K src) :
    ∃ xs vs, Spec.items l src = .ok (xs, none) ∧ Spec.allElems K.bits xs = .ok vs ∧
      step cfg K l (.set (.slice s) (.inr src)) = .ok (Spec.spliceAt l i j vs) .none := by
  obtain ⟨vs, xs, -, -, -, hit, hall, -⟩ := srcGood_vals hsrc l
  refine ⟨xs, vs, hit, hall, ?_⟩
  have h := set_slice_ok cfg K l s src hn (.inr ⟨hsrc, by intro a b c h; rw [hs] at h; cases h; rfl⟩)
  simp only [Spec.step, hs, hit, hall, if_true] at h
  rw [step]
  cases ho : assSubscript cfg K l (.slice s) (some (.inr src)) with
  | ok l' r =>
    rw [ho] at h
    obtain ⟨rfl, hr⟩ := h
    cases r <;> first | rfl | exact absurd hr id
  | exc | pending | ub => rw [ho] at h; exact absurd h id

example : SrcGood ⟨.ge313, false, true, true, true⟩ .i32 (.list [.int 5, .index (-3)]) := by decide
example : SrcGood ⟨.ge313, false, true, true, true⟩ .i32 (.same [5, 0, 2 ^ 31 - 1]) := by decide
example : Spec.spliceAt [1, 2, 3, 4] (some 1) (some (-1)) [9, 9, 9] = [1, 9, 9, 9, 4] := by decide

/-- C07 fails for every deletion `del l[a:b]` (any valid slice, any list): the code dereferences null. -/
theorem C07_del_negation (cfg : Cfg) (K : Kind) (l : List Int) (s : SliceArg) (f : Option Int × Option Int × Int)
    (hs : Spec.fields s = .ok f) : step cfg K l (.del (.slice s)) = .ub .nullDeref := by
  simp only [step, assSubscript]
  rw [(sliceUnpack_fields s).1, hs]

example : Spec.fields ⟨some (.int 0), some (.int 1), none⟩ = .ok (some 0, some 1, 1) := rfl

/-- C07 fails when a list is assigned to a slice of itself: `l[0:0] = l` on `[x, y]` gives `[x, x, x, y]`
where Python gives `[x, y, x, y]`, for all distinct 64-bit `x`, `y`. -/
theorem C07_self_negation (cfg : Cfg) (x y : Int) (hx : FitsS 64 x) (hy : FitsS 64 y) (hxy : x ≠ y) :
    step cfg .i64 [x, y] (.set (.slice ⟨some (.int 0), some (.int 0), none⟩) (.inr .self)) =
      .ok [x, x, x, y] .none ∧
    Spec.step 64 [x, y] (.set (.slice ⟨some (.int 0), some (.int 0), none⟩) (.inr .self)) =
      ([x, y, x, y], .ok .none) ∧ [x, x, x, y] ≠ [x, y, x, y] := by
  have hr : ∀ v, FitsS 64 v → rebox .i64 cfg.py v = (v, none) := fun v hv => rebox_eq cfg .i64 hv (.inl rfl)
  have hu : sliceUnpack ⟨some (.int 0), some (.int 0), none⟩ = .ok (0, 0, 1) := rfl
  have ha : adjustIndices (([x, y] : List Int).length : Int) 0 0 1 = (0, 0, 0) := rfl
  refine ⟨?_, ?_, by simp [hxy]⟩
  · simp only [step, assSubscript, hu, ha]
    simp [Src.isSequence, srcSize, assignLoop, insertLoop, srcItem, hr x hx]
  · have hf : Spec.fields ⟨some (.int 0), some (.int 0), none⟩ = .ok (some 0, some 0, 1) := rfl
    have he : Spec.allElems 64 [.int x, .int y] = .ok [x, y] := by
      have hx' : Spec.InRange 64 x := hx
      have hy' : Spec.InRange 64 y := hy
      simp [Spec.allElems, Spec.firstBad, Spec.IsElem, hx', hy', Spec.argVal]
    simp only [Spec.step, hf, Spec.items, List.map_cons, List.map_nil, he, if_true]
    rfl

example : FitsS 64 1 ∧ FitsS 64 2 ∧ (1 : Int) ≠ 2 := by decide

/-- C07 fails for generic iterables: any iterator on the right raises TypeError. -/
theorem C07_iterator_negation (cfg : Cfg) (K : Kind) (l : List Int) (s : SliceArg) (xs : List Arg)
    (i j : Option Int) (vs : List Int) (hs : Spec.fields s = .ok (i, j, 1))
    (hx : Spec.allElems K.bits xs = .ok vs) :
    step cfg K l (.set (.slice s) (.inr (.iter xs none))) = .exc l .typeError ∧
    Spec.step K.bits l (.set (.slice s) (.inr (.iter xs none))) = (Spec.spliceAt l i j vs, .ok .none) := by
  constructor
  · simp only [step, assSubscript]
    rw [(sliceUnpack_fields s).1, hs]
    simp [Src.isSequence]
  · simp only [Spec.step, hs, Spec.items, hx, if_true]

example : Spec.allElems Kind.i32.bits [.int 5, .int 6] = .ok [5, 6] := rfl

/-- C07 fails for IntArrayList on CPython 3.12+: assigning from another IntArrayList with a negative
element stores a different value. -/
theorem C07_negative_same_negation (cfg : Cfg) (hpy : cfg.py ≠ .le311) (v : Int) (hv : FitsS 32 v) (hneg : v < 0)
    (hmin : v ≠ -(2 ^ 31)) :
    ∃ w, w ≠ v ∧ step cfg .i32 [0] (.set (.slice ⟨some (.int 0), some (.int 1), none⟩) (.inr (.same [v]))) =
      .ok [w] .none := by
  refine ⟨-v, by omega, ?_⟩
  have hr := rebox_negative cfg hpy hv hneg hmin
  have hu : sliceUnpack ⟨some (.int 0), some (.int 1), none⟩ = .ok (0, 1, 1) := rfl
  have ha : adjustIndices (([0] : List Int).length : Int) 0 1 1 = (0, 1, 1) := rfl
  simp only [step, assSubscript, hu, ha]
  simp [Src.isSequence, srcSize, assignLoop, srcItem, hr]

example : FitsS 32 (-5) ∧ (-5 : Int) ≠ -(2 ^ 31) := by decide

end Verif.Props
