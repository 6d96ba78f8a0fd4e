import Verif.Model.LengthHint

/-! Helper lemma: the item loop that counts the items left. -/

namespace Verif.Hint

theorem loop_eq (K : Kind) (xs : List Arg) (l : List Int) :
    (loop K xs l).1 = (ArrayList.extendLoop K xs l).1 ∧ (loop K xs l).2.2 = (ArrayList.extendLoop K xs l).2 ∧
      ((loop K xs l).2.2 = none → (loop K xs l).2.1 = []) := by
  induction xs generalizing l with
  | nil => exact ⟨rfl, rfl, fun _ => rfl⟩
  | cons a as ih =>
    rw [loop, ArrayList.extendLoop]
    cases h : toElem K a with
    | mk v e =>
      cases e with
      | some e => exact ⟨rfl, rfl, fun h => (nomatch h)⟩
      | none => exact ih _

theorem loop_taken (K : Kind) (xs : List Arg) (l : List Int) :
    match loop K xs l with
    | (_, as, none) => as = [] ∧ ∀ b ∈ xs, (toElem K b).2 = none
    | (_, as, some e) => ∃ good a, xs = good ++ a :: as ∧ (∀ b ∈ good, (toElem K b).2 = none) ∧ (toElem K a).2 = some e := by
  induction xs generalizing l with
  | nil => exact ⟨rfl, by simp⟩
  | cons a as ih =>
    rw [loop]
    rcases hv : toElem K a with ⟨v, _ | e⟩
    · have := ih (l ++ [v])
      dsimp only
      generalize loop K as (l ++ [v]) = t at this
      obtain ⟨m, bs, _ | e⟩ := t
      · obtain ⟨h1, h2⟩ := this
        refine ⟨h1, fun b hb => ?_⟩
        rcases List.mem_cons.1 hb with rfl | hb
        · rw [hv]
        · exact h2 b hb
      · obtain ⟨good, c, h1, h2, h3⟩ := this
        refine ⟨a :: good, c, by rw [h1]; rfl, fun b hb => ?_, h3⟩
        rcases List.mem_cons.1 hb with rfl | hb
        · rw [hv]
        · exact h2 b hb
    · exact ⟨[], a, rfl, by simp, by rw [hv]⟩

end Verif.Hint
