import Verif.Lemmas.Tools
import Mathlib.Tactic.ByContra

/-!
# C70: method calls on Unsafe, SIMD and ASM objects
-/

namespace Verif.Props

open Verif.Tools
open Verif.Tools.Spec
open Verif.With (Shape)

/-- C70. A name gives an AttributeError exactly if it is not documented, on every system and with all arguments. -/
theorem C70_names (windows : Bool) (c : Cls) (name : String) (a : Shape) :
    call windows c name a = .attributeError ↔ ¬ Documented c name := by
  rw [documented_iff]
  unfold call
  rw [lookup_table]
  cases h : List.lookup name (both c) with
  | none => simp
  | some x =>
    have : x.1.call windows a ≠ .attributeError := by
      unfold Entry.call
      intro e
      repeat' split at e
      all_goals cases e
    simp [this]

/-- C70. A call comes to what its stub says - the function goes on with its arguments if they fit, TypeError if they do not, AttributeError
if there is no such method - exactly unless it `Deviates`. -/
theorem C70_exact_partial (windows : Bool) (c : Cls) (name : String) (a : Shape) :
    call windows c name a = expected c name a ↔ ¬ (Documented c name ∧ Deviates windows c name a) := by
  rw [documented_iff]
  unfold call expected
  rw [lookup_table, lookup_stub]
  cases h : List.lookup name (both c) with
  | none => simp
  | some x =>
    have := entry_iff (windows := windows) (both_ok c _ (mem_of_lookup h)) a
    simpa using this

/-- C70 without exceptions for the functions of Unsafe and SIMD: each is reached exactly with the documented number of
positional arguments, and every other call is a TypeError. -/
theorem C70_reached (windows : Bool) (c : Cls) (name : String) (n : Nat) (a : Shape) (hc : c ≠ .asm)
    (hd : List.lookup name (stub c) = some (.positional n)) :
    (a.pos = n ∧ a.kw = [] → call windows c name a = .reached) ∧
    (¬ (a.pos = n ∧ a.kw = []) → call windows c name a = .raised .typeError) := by
  have hx : name ≠ "__exit__" := by
    rintro rfl
    have e1 : List.lookup "__exit__" (stub c) = some (.named ["exc_type", "exc_val", "exc_tb"]) := by
      cases c <;> decide +kernel
    rw [e1] at hd
    cases hd
  have he : call windows c name a = expected c name a := by
    rw [C70_exact_partial]
    rintro ⟨_, ⟨h, _⟩ | ⟨h, _⟩ | ⟨h, _⟩ | ⟨h, _⟩⟩
    · exact hc h
    · exact hc h
    · exact hx h
    · exact hx h
  rw [he]
  unfold expected
  rw [hd]
  exact ⟨fun h => if_pos h, fun h => if_neg h⟩

/-- C70. No call of a method of Unsafe or SIMD by name looks at arguments that are not there. -/
theorem C70_no_fault (windows : Bool) (c : Cls) (name : String) (a : Shape) (u : UB)
    (h : call windows c name a = .fault u) : c = .asm ∧ windows = true ∧ name ∈ asmFast ∧ a.pos ≠ 1 := by
  have hd : Documented c name ∧ Deviates windows c name a := by
    by_contra hn
    rw [(C70_exact_partial windows c name a).2 hn] at h
    unfold expected at h
    repeat' split at h
    all_goals cases h
  obtain ⟨hdoc, ⟨rfl, rfl, hm, hk⟩ | ⟨h1, h2, h3, _, h5⟩ | ⟨rfl, _⟩ | ⟨rfl, _⟩⟩ := hd
  · have : ∀ name ∈ asmNames, ∃ e, List.lookup name (table .asm) = some e ∧ e.windowsOnly = true ∧
        (e.conv = .fast none 1 ∨ e.conv = .fast (some 1) 1) := by decide +kernel
    obtain ⟨e, e1, e2, e3⟩ := this name hm
    unfold call at h
    rw [e1] at h
    unfold Entry.call at h
    rcases e3 with e3 | e3 <;> simp [hk, e3, e2] at h
  · exact ⟨h1, h2, h3, h5⟩
  all_goals
    have e1 : List.lookup "__exit__" (table c) = some ⟨.fast none 0, false⟩ := by cases c <;> decide +kernel
    unfold call at h
    rw [e1] at h
    by_cases hk : a.kw = [] <;> simp [Entry.call, hk] at h

/-- C70, deviation: away from Windows `asm.run()`, `asm.run(code, 1)` and the like raise NotImplementedError rather than TypeError, and `asm.run(code)` does so
too, which the stub does not mention. -/
theorem C70_asm_negation (name : String) (hn : name ∈ asmNames) (k : Nat) :
    call false .asm name ⟨k, []⟩ = .raised .notImplementedError ∧
    expected .asm name ⟨k, []⟩ = if k = 1 then .reached else .raised .typeError := by
  have h1 : ∀ name ∈ asmNames, List.lookup name (stub .asm) = some (.positional 1) := by decide +kernel
  have h2 : ∀ name ∈ asmNames, ∃ e, List.lookup name (table .asm) = some e ∧ e.windowsOnly = true ∧
      (e.conv = .fast none 1 ∨ e.conv = .fast (some 1) 1) := by decide +kernel
  obtain ⟨e, e1, e2, e3⟩ := h2 name hn
  constructor
  · unfold call
    rw [e1]
    rcases e3 with e3 | e3 <;> simp [Entry.call, e3, e2]
  · unfold expected
    rw [h1 name hn]
    simp [fits_positional]

/-- C70, deviation: on Windows `asm.runFast()`, `makeFunctionFast()` and `freeFunctionFast()` read an argument that is not there, and they take more than one. -/
theorem C70_asm_fast_negation (name : String) (hn : name ∈ asmFast) (k : Nat) :
    call true .asm name ⟨0, []⟩ = .fault .outOfBounds ∧ call true .asm name ⟨k + 2, []⟩ = .reached ∧
    expected .asm name ⟨0, []⟩ = .raised .typeError ∧ expected .asm name ⟨k + 2, []⟩ = .raised .typeError := by
  have h1 : ∀ name ∈ asmFast, List.lookup name (stub .asm) = some (.positional 1) ∧
      List.lookup name (table .asm) = some ⟨.fast none 1, true⟩ := by decide +kernel
  obtain ⟨h1, h2⟩ := h1 name hn
  unfold call expected
  rw [h1, h2]
  simp [Entry.call, fits_positional]

/-! ### The hypotheses are satisfiable -/

example : Documented .simd "memcpyWCharAligned" ∧ ¬ Deviates true .simd "memcpyWCharAligned" ⟨3, []⟩ := by
  refine ⟨⟨.positional 3, by decide +kernel⟩, ?_⟩
  rintro (⟨h, _⟩ | ⟨h, _⟩ | ⟨h, _⟩ | ⟨h, _⟩) <;> revert h <;> decide
example : List.lookup "aligned_malloc" (stub .unsafeCls) = some (.positional 2) := by decide +kernel
example : ¬ Documented .unsafeCls "memmove" := by
  rw [← C70_names true .unsafeCls "memmove" ⟨0, []⟩]; decide +kernel
example : "runFast" ∈ asmNames ∧ "runFast" ∈ asmFast := by decide
example : call true .asm "freeFunctionFast" ⟨0, []⟩ = .fault .outOfBounds := by decide +kernel

end Verif.Props
