import Verif.Lemmas.ArrayListStep

/-! Helper lemmas: comparison answers at the API and the lexicographic order. -/

namespace Verif

open ArrayList

/-- Answer of a comparison through the API. -/
def answers (cfg : Cfg) (K : Kind) (op : CmpOp) (l : List Int) (s : Src) (b : Bool) : Prop :=
  step cfg K l (.cmp op s) = .ok l (.bool b)

theorem answers_of_ints (cfg : Cfg) (K : Kind) (op : CmpOp) (l v : List Int) (s : Src)
    (hs : SrcInts K l s = some v) (hc : Spec.cmp op l s = .ok (.bool (Spec.compare op l v))) :
    answers cfg K op l s (Spec.compare op l v) := by
  have h := compare_ints K op l v s hs
  rw [Spec.step, hc] at h
  unfold answers
  rw [step]
  cases ho : ArrayList.compare K op l s with
  | ok l' r =>
    rw [ho] at h
    obtain ⟨rfl, hr⟩ := h
    cases r <;> first | exact absurd hr id | (obtain rfl := hr; rfl)
  | exc | pending | ub => rw [ho] at h; exact absurd h id

theorem lexLt_irrefl (a : List Int) : Spec.lexLt a a = false := by
  induction a with
  | nil => rfl
  | cons x xs ih => simp [Spec.lexLt, ih]

theorem lexLt_trans {a b c : List Int} (h1 : Spec.lexLt a b = true) (h2 : Spec.lexLt b c = true) :
    Spec.lexLt a c = true := by
  induction a generalizing b c with
  | nil =>
    cases c with
    | nil => cases b <;> simp [Spec.lexLt] at h1 h2
    | cons => rfl
  | cons x xs ih =>
    cases b with
    | nil => simp [Spec.lexLt] at h1
    | cons y ys =>
      cases c with
      | nil => simp [Spec.lexLt] at h2
      | cons z zs =>
        simp only [Spec.lexLt] at *
        split at h1
        · split at h2
          · rw [if_pos (by omega)]
          · split at h2
            · cases h2
            · rw [if_pos (by omega)]
        · split at h1
          · cases h1
          · split at h2
            · rw [if_pos (by omega)]
            · split at h2
              · cases h2
              · rw [if_neg (by omega), if_neg (by omega)]
                exact ih h1 h2

theorem lexLt_total (a b : List Int) : Spec.lexLt a b = true ∨ a = b ∨ Spec.lexLt b a = true := by
  induction a generalizing b with
  | nil => cases b <;> simp [Spec.lexLt]
  | cons x xs ih =>
    cases b with
    | nil => simp [Spec.lexLt]
    | cons y ys =>
      simp only [Spec.lexLt]
      rcases Int.lt_trichotomy x y with h | h | h
      · simp [h]
      · subst h
        have := ih ys
        simpa [Int.lt_irrefl] using this
      · right; right; simp [h]

end Verif
