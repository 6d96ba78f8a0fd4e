import Verif.Lemmas.IntArrayList
import Verif.Spec.Range

/-! Helper lemmas: `from_range`. -/

namespace Verif.ArrayList

open Verif

theorem rangeLoop_ok (K : Kind) (step : Int) (n : Nat) (cur : Int)
    (h : ∀ i : Nat, i < n → FitsS 64 (cur + (i + 1) * step)) :
    rangeLoop K step n cur = .ok ((List.range n).map fun i : Nat => wrapS K.bits (cur + i * step)) := by
  induction n generalizing cur with
  | zero => rfl
  | succ n ih =>
    rw [rangeLoop, if_pos (by have := h 0 (by omega); simpa using this)]
    rw [ih (cur + step) (fun i hi => by
      have := h (i + 1) (by omega)
      rw [show cur + step + ((i : Int) + 1) * step = cur + (((i + 1 : Nat) : Int) + 1) * step by
        simp only [Int.natCast_add, Int.natCast_one, Int.add_mul, Int.one_mul]; omega]
      exact this)]
    simp only
    rw [List.range_succ_eq_map, List.map_cons, List.map_map]
    simp only [Int.natCast_zero, Int.zero_mul, Int.add_zero]
    congr 2
    apply List.map_congr_left
    intro i _
    simp only [Function.comp, Nat.succ_eq_add_one]
    congr 1
    rw [Int.natCast_add, Int.add_mul]; simp; omega

theorem rangeLoop_overflow (K : Kind) (step : Int) (n : Nat) (cur : Int)
    (h : ∃ i : Nat, i < n ∧ ¬ FitsS 64 (cur + (i + 1) * step)) :
    rangeLoop K step n cur = .error .signedOverflow := by
  induction n generalizing cur with
  | zero => obtain ⟨i, hi, -⟩ := h; omega
  | succ n ih =>
    rw [rangeLoop]
    by_cases h0 : FitsS 64 (cur + step)
    · rw [if_pos h0, ih]
      obtain ⟨i, hi, hf⟩ := h
      cases i with
      | zero => exact absurd (by simpa using h0) hf
      | succ i =>
        refine ⟨i, by omega, ?_⟩
        rw [show cur + step + ((i : Int) + 1) * step = cur + (((i + 1 : Nat) : Int) + 1) * step by
          simp only [Int.natCast_add, Int.natCast_one, Int.add_mul, Int.one_mul]; omega]
        exact hf
    · rw [if_neg h0]

/-- A list `start + i * step` of length `n` is the range iff `n` counts the members. -/
theorem isRange_of_count {start stop step : Int} {n : Nat} {l : List Int}
    (hl : l = (List.range n).map fun i : Nat => start + i * step)
    (hn : ∀ i : Nat, i < n ↔ ((0 < step ∧ start + i * step < stop) ∨ (step < 0 ∧ start + i * step > stop))) :
    Spec.IsRange start stop step l := by
  intro i
  subst hl
  rw [List.getElem?_map]
  by_cases hi : i < n
  · rw [List.getElem?_range hi, if_pos ((hn i).1 hi)]; rfl
  · rw [List.getElem?_eq_none (by simpa using hi), if_neg (fun h => hi ((hn i).2 h))]; rfl

theorem up_count {start stop step : Int} (hs : 0 < step) (i : Nat) :
    (i : Int) < (stop - start + step - 1) / step ↔ start + i * step < stop := by
  have key : (i : Int) < (stop - start + step - 1) / step ↔ (i : Int) + 1 ≤ (stop - start + step - 1) / step := by omega
  rw [key, Int.le_ediv_iff_mul_le hs, Int.add_mul]
  omega

theorem down_count {start stop step : Int} (hs : step < 0) (i : Nat) :
    (i : Int) < (start - stop) / (-step) ↔ start + i * step + step ≥ stop := by
  have key : (i : Int) < (start - stop) / (-step) ↔ (i : Int) + 1 ≤ (start - stop) / (-step) := by omega
  rw [key, Int.le_ediv_iff_mul_le (by omega), Int.add_mul, Int.mul_neg]
  omega

end Verif.ArrayList
