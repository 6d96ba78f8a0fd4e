import Verif.Spec.Ready
import Verif.Model.Ready

/-!
# Lemmas about prepared types
-/

namespace Verif.Ready

variable {A : Attrs} {py311 : Bool} {c : Cls}

theorem compiled_eq (f : Form) : compiled py311 f = Direct py311 f := by
  cases f <;> cases py311 <;> rfl

theorem ready_self (s : State) (c : Cls) : ready s c c = true := if_pos rfl

theorem ready_mono {s : State} {c d : Cls} (h : s d = true) : ready s c d = true := by
  unfold ready
  split
  · rfl
  · exact h

theorem ready_ready {s : State} {c : Cls} (h : s c = true) : ready s c = s := by
  funext d
  unfold ready
  split
  · next e => rw [e, h]
  · rfl

theorem ready_ne {s : State} {c d : Cls} (h : d ≠ c) : ready s c d = s d := if_neg h

theorem once (s : State) (c : Cls) : (if s c then s else ready s c) = ready s c := by
  cases h : s c
  · exact if_neg (by simp)
  · rw [if_pos rfl, ready_ready h]

/-- The state after a step. -/
theorem step_state (s : State) (c : Cls) (e : Event) :
    (step A py311 s c e).1 = if Prepares py311 c e then ready s c else s := by
  cases e with
  | call name f =>
    show (if compiled py311 f then getMethod A s c name else getAttr A s c name).1 =
      if Direct py311 f = true then ready s c else s
    rw [compiled_eq]
    by_cases hd : Direct py311 f = true
    · rw [if_pos hd, if_pos hd]
      simp only [getMethod, once, accessor, ready_self, typeLookup, if_true]
      exact ready_ready (ready_self s c)
    · rw [if_neg hd, if_neg hd]
      simp only [getAttr, accessor]
      cases h : s c
      · simp
      · simp [genericGetAttr, typeLookup, ready_ready h]
  | fetch name =>
    simp only [step, Prepares, getAttr, accessor]
    cases h : s c
    · simp
    · simp [genericGetAttr, typeLookup, ready_ready h]
  | test name =>
    simp only [step, Prepares, optionalAttr, accessor]
    cases h : s c
    · simp
    · simp only [if_true, genericGetAttr, typeLookup, ready_ready h]
      cases A.ofList c name <;> simp
  | «abstract» =>
    simp only [step, Prepares, getAttr, accessor]
    cases h : s c
    · simp
    · simp only [if_true, genericGetAttr, typeLookup, ready_ready h]
      cases A.ofList c "__class__" <;> simp
  | concrete =>
    simp only [step, Prepares, optionalAttr, accessor]
    cases h : s c
    · simp
    · simp only [if_true, genericGetAttr, typeLookup, ready_ready h]
      cases A.ofList c "__class__" <;> simp
  | ofClass name => simp only [step, Prepares, classGetAttr, once, if_true]
  | subclass => simp only [step, Prepares, once, if_true]
  | slot u =>
    cases u <;> try rfl
    cases c with
    | list c => rfl
    | tool t => exact once s (.tool t)
  | assign | special => rfl

theorem foldl_ready (h : History) (s : State) (c : Cls) :
    h.foldl (fun s x => (step A py311 s x.1 x.2).1) s c = true ↔ s c = true ∨ Prepared py311 h c := by
  induction h generalizing s with
  | nil => simp [Prepared]
  | cons x h ih =>
    rw [List.foldl_cons, ih, step_state]
    unfold Prepared
    obtain ⟨d, e⟩ := x
    constructor
    · rintro (h1 | ⟨e', he, hp⟩)
      · by_cases hp : Prepares py311 d e = true
        · rw [if_pos hp] at h1
          by_cases hd : c = d
          · exact .inr ⟨e, by simp [hd], hd ▸ hp⟩
          · rw [ready_ne hd] at h1
            exact .inl h1
        · rw [if_neg hp] at h1
          exact .inl h1
      · exact .inr ⟨e', List.mem_cons_of_mem _ he, hp⟩
    · rintro (h1 | ⟨e', he, hp⟩)
      · refine .inl ?_
        split
        · exact ready_mono h1
        · exact h1
      · rcases List.mem_cons.1 he with he | he
        · cases he
          rw [if_pos hp]
          exact .inl (ready_self s c)
        · exact .inr ⟨e', he, hp⟩

theorem run_ready (h : History) (c : Cls) : run A py311 h c = true ↔ Prepared py311 h c := by
  unfold run
  rw [foldl_ready]
  simp [imported]

/-- What is seen. -/
theorem step_seen (hc : A.ofList c "__class__" = true) (s : State) (e : Event) :
    (step A py311 s c e).2 = expected A c e ↔ s c = true ∨ Needs A py311 c e = false := by
  cases e with
  | call name f =>
    simp only [step, compiled_eq, Needs, expected]
    by_cases hd : Direct py311 f = true
    · rw [if_pos hd, hd]
      simp only [getMethod, once, accessor, ready_self, typeLookup, if_true]
      simp
    · rw [if_neg hd, Bool.eq_false_iff.2 hd]
      simp only [getAttr, accessor]
      cases h : s c <;> cases hn : A.ofList c name <;> simp [genericGetAttr, typeLookup, hn]
  | fetch name =>
    simp only [step, Needs, expected, getAttr, accessor]
    cases h : s c <;> cases hn : A.ofList c name <;> simp [genericGetAttr, typeLookup, hn]
  | test name =>
    simp only [step, Needs, expected, optionalAttr, accessor]
    cases h : s c <;> cases hn : A.ofList c name <;> simp [genericGetAttr, typeLookup, hn]
  | assign name =>
    simp only [step, Needs, expected, setAttr, accessor]
    cases h : s c <;> simp
  | «abstract» =>
    simp only [step, Needs, expected, getAttr, accessor]
    cases h : s c <;> simp [genericGetAttr, typeLookup, hc]
  | special name =>
    exact iff_of_true rfl (.inr rfl)
  | concrete | slot | subclass | ofClass => simp [step, Needs, expected, classGetAttr]

end Verif.Ready
