import Verif.Lemmas.ExactRange

/-!
# C09, exactly: the arguments for which `from_range` builds the range
-/

namespace Verif.Props

open Verif ArrayList

/-- C09: for machine words with a step other than zero, `from_range(start, stop, step)` returns the elements
of `range(start, stop, step)` exactly for the arguments of `RangeExact`; for all others it returns another
list or overflows. -/
theorem C09_exact (K : Kind) (start stop step : Int)
    (hs : FitsS 64 start) (hp : FitsS 64 stop) (hk : FitsS 64 step) (h0 : step ≠ 0) :
    (∃ l, fromRange K (.int start) (some (.int stop)) (some (.int step)) = .ok () l ∧
      Spec.IsRange start stop step l) ↔ Spec.RangeExact K.bits start stop step := by
  have hm : FitsS 64 ssizeMax := by decide
  unfold Spec.RangeExact
  by_cases h1 : stop = ssizeMax
  · have he : evalRange (.int start) (some (.int stop)) (some (.int step)) = .ok (0, start, 1) := by
      simp [evalRange, parseN, asLong, hs, hk, h1, hm]
    rw [fromRange_eq K _ _ _ he, if_pos h1]
    have hle : start ≤ stop := by
      rw [h1, show ssizeMax = 9223372036854775807 by decide]
      rw [fits64] at hs; omega
    have hpos : 0 < stop := by rw [h1]; decide
    exact rangeOf_stop_max K start step stop hle hpos h0
  · rw [if_neg h1]
    by_cases h2 : step = ssizeMax
    · have he : evalRange (.int start) (some (.int stop)) (some (.int step)) = .ok (start, stop, 1) := by
        simp [evalRange, parseN, asLong, hs, hp, h1, h2, hm]
      rw [fromRange_eq K _ _ _ he, if_pos h2]
      exact rangeOf_step_max K start stop step hs hp h2
    · have he : evalRange (.int start) (some (.int stop)) (some (.int step)) = .ok (start, stop, step) := by
        simp [evalRange, parseN, asLong, hs, hp, hk, h1, h2, h0]
      rw [fromRange_eq K _ _ _ he, if_neg h2]
      exact rangeOf_iff K start stop step h0

/-- The call with two arguments has the domain of a unit step. -/
theorem C09_exact_two (K : Kind) (start stop : Int) (hs : FitsS 64 start) (hp : FitsS 64 stop) :
    (∃ l, fromRange K (.int start) (some (.int stop)) none = .ok () l ∧
      Spec.IsRange start stop 1 l) ↔ Spec.RangeExact K.bits start stop 1 := by
  rw [← C09_exact K start stop 1 hs hp (by decide) (by decide)]
  have : fromRange K (.int start) (some (.int stop)) none =
      fromRange K (.int start) (some (.int stop)) (some (.int 1)) := by
    have h1 : FitsS 64 1 := by decide
    have n1 : (1 : Int) ≠ ssizeMax := by decide
    have hf : FitsS 64 ssizeMax := by decide
    by_cases hm : stop = ssizeMax
    · simp [fromRange, evalRange, parseN, asLong, hs, h1, hm, hf]
    · simp [fromRange, evalRange, parseN, asLong, hs, hp, h1, n1, hm]
  rw [this]

/-- The call with one argument works for every word whose predecessor fits the elements, except the largest. -/
theorem C09_exact_one (K : Kind) (stop : Int) (hp : FitsS 64 stop) :
    (∃ l, fromRange K (.int stop) none none = .ok () l ∧ Spec.IsRange 0 stop 1 l) ↔
      stop ≤ 0 ∨ (FitsS K.bits (stop - 1) ∧ stop ≠ ssizeMax) := by
  have he : evalRange (.int stop) none none = .ok (0, stop, 1) := by
    simp [evalRange, parseN, asLong, hp]
  rw [fromRange_eq K _ _ _ he, rangeOf_iff K 0 stop 1 (by decide)]
  have hm : ssizeMax = 9223372036854775807 := by decide
  unfold Spec.RangeCore Spec.Position
  rw [hm]
  constructor
  · rintro ⟨h1, -, h3⟩
    by_cases hle : stop ≤ 0
    · exact Or.inl hle
    · right
      have h := h3 (stop - 1).toNat (Or.inl ⟨by decide, by omega⟩)
      rw [show (0 : Int) + ((stop - 1).toNat : Int) * 1 = stop - 1 by omega] at h
      have h1' := h1 (by decide) (by omega)
      rw [fits64] at h1'
      exact ⟨h.1, by omega⟩
  · rintro (hle | ⟨hf, hne⟩)
    · refine ⟨fun _ h => by omega, fun h => by omega, ?_⟩
      rintro i (⟨-, h⟩ | ⟨h, -⟩) <;> omega
    · rw [fits64] at hp
      refine ⟨fun _ _ => by rw [fits64]; omega, fun h => by omega, ?_⟩
      rintro i (⟨-, h⟩ | ⟨h, -⟩)
      · refine ⟨?_, by rw [fits64]; omega⟩
        cases K <;> simp only [Kind.bits, fits32, fits64] at * <;> omega
      · omega

/-- Both sides of the boundary: the descending range 10, 8, 6 by a divisor of the distance and by none, an
ascending range at the end of the word, and a step that is the largest word. -/
example : Spec.RangeExact 32 10 4 (-2) ∧ ¬ Spec.RangeExact 32 10 5 (-2) ∧
    ¬ Spec.RangeExact 64 (2 ^ 63 - 3) (2 ^ 63 - 2) 5 ∧ Spec.RangeExact 64 7 8 ssizeMax := by
  have e : ssizeMax = 9223372036854775807 := by decide
  refine ⟨?_, ?_, ?_, ?_⟩
  · unfold Spec.RangeExact
    rw [e, if_neg (by decide), if_neg (by decide)]
    refine ⟨fun h => by omega, fun _ _ => by decide, ?_⟩
    rintro i (⟨h, -⟩ | ⟨-, h⟩)
    · omega
    · rw [fits32, fits64]; omega
  · unfold Spec.RangeExact
    rw [e, if_neg (by decide), if_neg (by decide)]
    rintro ⟨-, h, -⟩
    exact absurd (h (by decide) (by decide)).2.2 (by decide)
  · unfold Spec.RangeExact
    rw [e, if_neg (by decide), if_neg (by decide)]
    rintro ⟨-, -, h⟩
    exact absurd (h 0 (Or.inl (by decide))).2 (by decide)
  · unfold Spec.RangeExact
    rw [if_neg (by decide), if_pos rfl]
    exact Or.inr (by decide)

end Verif.Props
