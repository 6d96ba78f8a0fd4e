import Verif.Lemmas.Ready

/-!
# C65: attributes do not depend on the past

`Attrs` gives the names that lists and classes have, `expected` (Spec/Ready.lean) what a program should see. Histories begin
with the import of the library.
-/

namespace Verif.Props

open Verif.Ready
variable (A : Attrs) (py311 : Bool) (h : History) (c : Cls)

/-- C65. After any history, a step shows what it should exactly if the class was prepared by an earlier step (a method call
written with `.` and without stars, a reference to an attribute of the class, …), or the step is not one of those that need it:
fetching an attribute that exists without calling it, `hasattr`, a call with stars or, before Python 3.11, with keywords,
assignment to an attribute, `isinstance` with an abstract class. -/
theorem C65_exact_partial (hc : A.ofList c "__class__" = true) (e : Event) :
    (step A py311 (run A py311 h) c e).2 = expected A c e ↔ Prepared py311 h c ∨ Needs A py311 c e = false := by
  rw [step_seen hc, run_ready]

/-- A plain method call always finds the method. -/
theorem C65_method_call (name : String) (hn : A.ofList c name = true) :
    (step A py311 (run A py311 h) c (.call name .plain)).2 = .found := by
  simp [step, compiled, getMethod, once, accessor, ready_self, typeLookup, hn]

/-- After it, everything is as it should be for good. -/
theorem C65_after_call (hc : A.ofList c "__class__" = true) (h' : History) (name : String) (e : Event) :
    (step A py311 (run A py311 (h ++ (c, .call name .plain) :: h')) c e).2 = expected A c e :=
  (C65_exact_partial A py311 _ c hc e).2 (.inl ⟨.call name .plain, by simp, rfl⟩)

/-- C65, deviation: in a program that only makes lists, indexes, iterates over, compares and prints them, and the like, `l.append`
without a call is an AttributeError, and `hasattr` says no. -/
theorem C65_fetch_negation (name : String) (hn : A.ofList c name = true)
    (hh : ∀ e, (c, e) ∈ h → ∃ u, e = .slot u ∧ (u = .hash → ∃ d, c = .list d)) :
    (step A py311 (run A py311 h) c (.fetch name)).2 = .attributeError ∧
    (step A py311 (run A py311 h) c (.test name)).2 = .absent ∧
    expected A c (.fetch name) = .found ∧ expected A c (.test name) = .found := by
  have hr : run A py311 h c = false := by
    cases e : run A py311 h c
    · rfl
    · obtain ⟨e, he, hp⟩ := (run_ready h c).1 e
      obtain ⟨u, rfl, hu⟩ := hh e he
      cases u <;> first | cases hp | skip
      obtain ⟨d, rfl⟩ := hu rfl
      cases hp
  simp [step, getAttr, optionalAttr, accessor, hr, expected, hn]

/-- C65, deviation: `IntArrayList(x).sort(reverse=True)` at the beginning of a program is an AttributeError before Python 3.11,
and `l.append(*args)` in any version. -/
theorem C65_call_negation (name : String) (hn : A.ofList c name = true) :
    (step A false (run A false [(c, .slot .construct)]) c (.call name .keywords)).2 = .attributeError ∧
    (step A py311 (run A py311 [(c, .slot .construct)]) c (.call name .starred)).2 = .attributeError ∧
    (step A true (run A true [(c, .slot .construct)]) c (.call name .keywords)).2 = .found ∧
    expected A c (.call name .keywords) = .found := by
  simp [run, step, slotUse, compiled, getAttr, getMethod, accessor, imported, ready_self, typeLookup, expected, hn]

/-- C65, deviation: setting an attribute raises a TypeError, and `isinstance(l, Sized)` an AttributeError, on a list of a class
that is not prepared; afterwards the first raises an AttributeError and the second has an answer. -/
theorem C65_assign_negation (name : String) :
    (step A py311 (run A py311 [(c, .slot .construct)]) c (.assign name)).2 = .typeError ∧
    (step A py311 (run A py311 [(c, .slot .construct)]) c .abstract).2 = .attributeError ∧
    expected A c (.assign name) = .attributeError ∧ expected A c .abstract = .done :=
  ⟨rfl, rfl, rfl, rfl⟩

/-- A `with` statement over an Unsafe, SIMD, SIMDLowAVX512 or ASM object finds `__enter__` and `__exit__` after any history, and prepares the class. -/
theorem C65_with (t : Verif.With.Tool) (name : String) (hn : A.ofList (.tool t) name = true) (h' : History) :
    (step A py311 (run A py311 h) (.tool t) (.special name)).2 = .found ∧
    run A py311 (h ++ (.tool t, .special name) :: h') (.tool t) = true := by
  refine ⟨by simp [step, typeLookup, hn], (run_ready _ _).2 ⟨.special name, by simp, rfl⟩⟩

/-- C65, deviation: `malloc = Unsafe().malloc` at the beginning of a program is an AttributeError, after `hash(Unsafe())` it is not; on a list
`hash` does not help. -/
theorem C65_tool_negation (t : Verif.With.Tool) (d : Verif.Methods.Cls) (name : String)
    (hn : A.ofList (.tool t) name = true) (hd : A.ofList (.list d) name = true) :
    (step A py311 (run A py311 [(.tool t, .slot .construct)]) (.tool t) (.fetch name)).2 = .attributeError ∧
    (step A py311 (run A py311 [(.tool t, .slot .construct), (.tool t, .slot .hash)]) (.tool t) (.fetch name)).2 = .found ∧
    (step A py311 (run A py311 [(.list d, .slot .construct), (.list d, .slot .hash)]) (.list d) (.fetch name)).2 =
      .attributeError ∧
    expected A (.tool t) (.fetch name) = .found := by
  refine ⟨rfl, ?_, rfl, ?_⟩
  · simp [run, step, slotUse, hashFilled, getAttr, genericGetAttr, accessor, imported, ready_self, typeLookup, hn]
  · simp [expected, hn]

/-- A step prepares no class but its own. -/
theorem C65_classes (d : Cls) (e : Event) (hd : d ≠ c) :
    run A py311 (h ++ [(d, e)]) c = run A py311 h c := by
  rw [Bool.eq_iff_iff, run_ready, run_ready]
  unfold Prepared
  simp only [List.mem_append, List.mem_singleton, Prod.mk.injEq]
  constructor
  · rintro ⟨e', he | ⟨rfl, -⟩, hp⟩
    · exact ⟨e', he, hp⟩
    · exact absurd rfl hd
  · rintro ⟨e', he, hp⟩
    exact ⟨e', .inl he, hp⟩

/-! ### The hypotheses are satisfiable -/

section examples

/-- Some names. -/
def someAttrs : Attrs where
  ofList c n := match c with
    | .list _ => n ∈ ["__class__", "append", "sort", "__reversed__"]
    | .tool _ => n ∈ ["__class__", "__enter__", "__exit__", "malloc"]
  ofClass _ n := n ∈ ["__class__", "append", "sort", "__reversed__", "__name__"]

example : someAttrs.ofList (.list .intArray) "__class__" = true ∧ someAttrs.ofList (.list .intArray) "append" = true := by decide
example : ∀ e, (Cls.list .intArray, e) ∈ [(Cls.list .intArray, Event.slot .construct), (.list .objArray, .subclass), (.list .intArray, .slot .len)] →
    ∃ u, e = .slot u ∧ (u = .hash → ∃ d, Cls.list .intArray = .list d) := by
  intro e he
  simp only [List.mem_cons, Prod.mk.injEq, true_and, reduceCtorEq, Cls.list.injEq, false_and, false_or, List.not_mem_nil, or_false] at he
  rcases he with rfl | rfl <;> exact ⟨_, rfl, nofun⟩
example : (step someAttrs true (run someAttrs true [(.list .intArray, .slot .construct), (.list .intArray, .call "append" .plain)]) (.list .intArray)
    (.fetch "sort")).2 = .found := by decide
example : (step someAttrs true (run someAttrs true [(.list .intArray, .slot .construct), (.list .objArray, .call "append" .plain)]) (.list .intArray)
    (.fetch "sort")).2 = .attributeError := by decide
example : someAttrs.ofList (.tool .unsafeTool) "malloc" = true ∧ someAttrs.ofList (.list .intArray) "malloc" = false := by decide
example : someAttrs.ofList (.tool .asm) "__class__" = true ∧ someAttrs.ofList (.list .intArray) "__class__" = true := by decide

end examples

end Verif.Props
