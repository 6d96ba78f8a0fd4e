import Verif.Lemmas.GfxPotential

/-!
# C17: the fallback merge sort sorts

`Gfx.timsort` is the model of `gfx::timsort`; a fault is an access outside the data or the work area, a failed
assertion, or a loop that does not end. The comparisons of the two callers are `<` and `>`.
-/

namespace Verif.Props

open Verif.Spec

theorem ltInt_strictWeak : StrictWeak (fun x y : Int => decide (x < y)) :=
  ⟨by simp, by simp only [decide_eq_true_eq]; omega, by simp only [decide_eq_false_iff_not]; omega⟩

theorem gtInt_strictWeak : StrictWeak (fun x y : Int => decide (x > y)) :=
  ⟨by simp, by simp only [decide_eq_true_eq]; omega, by simp only [decide_eq_false_iff_not]; omega⟩

/-- For every strict weak order and every list of fewer than 2^60 elements the sort ends without a fault, and what it
leaves is the old contents, sorted, equivalent elements in their old order. -/
theorem C17_sorts {ε : Type} (lt : ε → ε → Bool) (sw : StrictWeak lt) (l : List ε) (hl : l.length < 2 ^ 60) :
    ∃ out b, Gfx.timsort lt l = .ok (out, b) ∧ StableSort lt l out :=
  Gfx.timsort_spec lt sw l hl

/-- Up to 2^27 elements the counter `minGallop`, an `int`, never overflows either, so that the execution has no
undefined behaviour at all. -/
theorem C17_noOverflow_partial {ε : Type} (lt : ε → ε → Bool) (sw : StrictWeak lt) (l : List ε)
    (hl : l.length ≤ 2 ^ 27) : ∃ out, Gfx.timsort lt l = .ok (out, false) ∧ StableSort lt l out := by
  obtain ⟨out, b, e, s⟩ := Gfx.timsort_spec lt sw l (by omega)
  have := Gfx.timsort_noOverflow lt l out b hl e
  subst this
  exact ⟨out, e, s⟩

/-- Ascending, on integers: a permutation in which no element is greater than one after it. -/
theorem C17_ascending_partial (l : List Int) (hl : l.length ≤ 2 ^ 27) :
    ∃ out, Gfx.timsort (fun x y => decide (x < y)) l = .ok (out, false) ∧ out.Perm l ∧ out.Pairwise (· ≤ ·) := by
  obtain ⟨out, e, p, s, _⟩ := C17_noOverflow_partial _ ltInt_strictWeak l hl
  refine ⟨out, e, p, s.imp ?_⟩
  intro a b h
  simp only [decide_eq_false_iff_not] at h
  omega

/-- Descending (`std::greater`). -/
theorem C17_descending_partial (l : List Int) (hl : l.length ≤ 2 ^ 27) :
    ∃ out, Gfx.timsort (fun x y => decide (x > y)) l = .ok (out, false) ∧ out.Perm l ∧ out.Pairwise (· ≥ ·) := by
  obtain ⟨out, e, p, s, _⟩ := C17_noOverflow_partial _ gtInt_strictWeak l hl
  refine ⟨out, e, p, s.imp ?_⟩
  intro a b h
  simp only [decide_eq_false_iff_not] at h
  omega

/-- A list on which the code merges: sixty-six elements in runs of both directions. -/
def twoRuns : List Int :=
  (List.range 33).map (fun i : Nat => (40 - i : Int)) ++ (List.range 33).map (fun i : Nat => (3 * i : Int))

example : twoRuns.length ≤ 2 ^ 27 ∧ ¬ twoRuns.Pairwise (· ≤ ·) := by decide

example : ∃ out, Gfx.timsort (fun x y => decide (x < y)) twoRuns = .ok (out, false) ∧ out.Perm twoRuns ∧
    out.Pairwise (· ≤ ·) := C17_ascending_partial twoRuns (by decide)

end Verif.Props
