import Verif.Lemmas.Compare

/-!
# C14: comparison of IntArrayList / BigIntArrayList
-/

namespace Verif.Props

open Verif ArrayList

/-- C14: all six operators between two lists of the class give the lexicographic comparison. -/
theorem C14_compare (cfg : Cfg) (K : Kind) (op : CmpOp) (a b : List Int) :
    answers cfg K op a (.same b) (Spec.compare op a b) ∧ answers cfg K op a .self (Spec.compare op a a) :=
  ⟨answers_of_ints cfg K op a b _ rfl rfl, answers_of_ints cfg K op a a _ rfl rfl⟩

/-- C14: … and against a Python list of in-range ints. -/
theorem C14_compare_list (cfg : Cfg) (K : Kind) (op : CmpOp) (a b : List Int) (hb : AllFits K b) :
    answers cfg K op a (.list (b.map .int)) (Spec.compare op a b) := by
  have hfit : ∀ x ∈ b.map Arg.int, (match x with | .int v => decide (FitsS K.bits v) | _ => false) = true := by
    intro x hx
    obtain ⟨v, hv, rfl⟩ := List.mem_map.1 hx
    simpa using hb v hv
  have hmap : (b.map Arg.int).map Spec.argVal = b := by rw [List.map_map]; exact List.map_id b
  have h1 : SrcInts K a (.list (b.map .int)) = some b := by
    simp only [SrcInts]; refine (if_pos ?_).trans (by rw [hmap]); exact hfit
  refine answers_of_ints cfg K op a b _ h1 ?_
  unfold Spec.cmp
  have := (map_toElem_ints hfit).2
  rw [hmap] at this
  simp only [this]

example : AllFits .i32 [-1, 5] := by decide

/-! Order laws at the API, from the lexicographic order. -/

/-- C14: `<` at the API is a strict total order consistent with `==`, `<=`, `>`, `>=`, `!=`. -/
theorem C14_strict_total_order (cfg : Cfg) (K : Kind) (a b c : List Int) :
    answers cfg K .lt a (.same a) false ∧
    (answers cfg K .lt a (.same b) true → answers cfg K .lt b (.same c) true → answers cfg K .lt a (.same c) true) ∧
    (answers cfg K .lt a (.same b) true ∨ answers cfg K .eq a (.same b) true ∨ answers cfg K .lt b (.same a) true) ∧
    (answers cfg K .eq a (.same b) true ↔ a = b) ∧
    (∀ r, answers cfg K .gt a (.same b) r ↔ answers cfg K .lt b (.same a) r) ∧
    (∀ r, answers cfg K .le a (.same b) r ↔ answers cfg K .lt b (.same a) (!r)) ∧
    (∀ r, answers cfg K .ge a (.same b) r ↔ answers cfg K .lt a (.same b) (!r)) ∧
    (∀ r, answers cfg K .ne a (.same b) r ↔ answers cfg K .eq a (.same b) (!r)) := by
  have key : ∀ op x y r, answers cfg K op x (.same y) r ↔ Spec.compare op x y = r := by
    intro op x y r
    have := (C14_compare cfg K op x y).1
    constructor
    · intro h
      unfold answers at *
      rw [this] at h
      cases h; rfl
    · rintro rfl; exact this
  have hle : ∀ x y, (Spec.lexLt x y || decide (x = y)) = !Spec.lexLt y x := by
    intro x y
    rcases lexLt_total x y with h | h | h
    · have h2 : Spec.lexLt y x = false := by
        cases hh : Spec.lexLt y x
        · rfl
        · have := lexLt_trans h hh; rw [lexLt_irrefl] at this; cases this
      simp [h, h2]
    · subst h; simp [lexLt_irrefl]
    · have h2 : Spec.lexLt x y = false := by
        cases hh : Spec.lexLt x y
        · rfl
        · have := lexLt_trans h hh; rw [lexLt_irrefl] at this; cases this
      have h3 : x ≠ y := by rintro rfl; rw [lexLt_irrefl] at h; cases h
      simp [h, h2, h3]
  simp only [key]
  refine ⟨lexLt_irrefl a, lexLt_trans, ?_, ?_, ?_, ?_, ?_, ?_⟩
  · have := lexLt_total a b
    simpa [Spec.compare] using this
  · simp [Spec.compare]
  · intro r; rfl
  · intro r; simp only [Spec.compare, hle]; cases Spec.lexLt b a <;> cases r <;> simp
  · intro r
    simp only [Spec.compare]
    rw [show decide (a = b) = decide (b = a) by simp [eq_comm], hle b a]
    cases Spec.lexLt a b <;> cases r <;> simp
  · intro r; simp only [Spec.compare]; cases r <;> simp

end Verif.Props
