import Verif.Props.IntValues

/-!
# C02: exactly the integers beyond the element type that an int array list refuses
-/

namespace Verif.Props

open Verif Verif.ArrayList

private theorem toElem_int64 (K : Kind) {v : Int} (h : FitsS 64 v) : toElem K (.int v) = (wrapS K.bits v, none) := by
  simp only [toElem, asLong, if_pos h]

private theorem toElem_big (K : Kind) {v : Int} (h : ¬ FitsS 64 v) : toElem K (.int v) = (-1, some .overflowError) := by
  simp only [toElem, asLong, if_neg h, wrapS_neg_one]

private theorem toElem_elem (K : Kind) {a : Arg} (h : Spec.IsElem K.bits a = true) : toElem K a = (Spec.argVal a, none) := by
  have h64 : ∀ v, FitsS K.bits v → FitsS 64 v := by
    intro v hv
    cases K with
    | i64 => exact hv
    | i32 =>
      have hv : FitsS 32 v := hv
      simp only [FitsS] at hv ⊢
      omega
  cases a with
  | other => cases h
  | int v | index v =>
    have h : FitsS K.bits v := of_decide_eq_true h
    simp only [toElem, asLong, if_pos (h64 v h), Spec.argVal, wrapS_of_fits K h]

private theorem extendLoop_len (K : Kind) (xs : List Arg) : ∀ (l l' : List Int) (o : Option Exc), extendLoop K xs l = (l', o) →
    l.length ≤ l'.length := by
  induction xs with
  | nil => intro l l' o h; cases h; exact Nat.le_refl _
  | cons a as ih =>
    intro l l' o h
    rw [extendLoop] at h
    split at h
    · cases h; exact Nat.le_refl _
    · have := ih _ _ _ h
      simp at this
      omega

private theorem extendLoop_pre (K : Kind) (pre post : List Arg) (v : Int) (hp : ∀ a ∈ pre, Spec.IsElem K.bits a = true) :
    ∀ l, (∃ e, extendLoop K (pre ++ .int v :: post) l = (l ++ pre.map Spec.argVal, some e)) ↔ ¬ FitsS 64 v := by
  induction pre with
  | nil =>
    intro l
    by_cases h : FitsS 64 v
    · simp only [List.nil_append, extendLoop, toElem_int64 K h, List.map_nil, List.append_nil, h, not_true_eq_false, iff_false]
      rintro ⟨e, he⟩
      have := extendLoop_len K _ _ _ _ he
      simp at this
      omega
    · simp [extendLoop, toElem_big K h, h]
  | cons a as ih =>
    intro l
    have := ih (fun b hb => hp b (List.mem_cons_of_mem _ hb)) (l ++ [Spec.argVal a])
    simp only [List.cons_append, extendLoop, toElem_elem K (hp a (by simp)), List.map_cons]
    simpa using this

private theorem exc_iff {o : LOut} {p : List Int × Option Exc} {l : List Int} {r : Ret}
    (h : o = match p with | (l', none) => .ok l' r | (l', some e) => .exc l' e) :
    (∃ e, o = .exc l e) ↔ ∃ e, p = (l, some e) := by
  subst h
  obtain ⟨l', q⟩ := p
  cases q <;> simp

/-- C02, exactly, for an integer beyond the element type: `insert` always refuses it; `append`, `l[i] = v`, `extend`,
`+=` refuse it (raising, the list as before but for the items before it) if and only if it is also beyond the
machine word. -/
theorem C02_refusal_exact (cfg : Cfg) (K : Kind) (l : List Int) (v : Int) (hv : ¬ FitsS K.bits v) :
    ((∃ e, step cfg K l (.append (.int v)) = .exc l e) ↔ ¬ FitsS 64 v) ∧
    (∀ i : Int, -(l.length : Int) ≤ i → i < l.length → FitsS 64 i →
      ((∃ e, step cfg K l (.set (.idx (.int i)) (.inl (.int v))) = .exc l e) ↔ ¬ FitsS 64 v)) ∧
    (∀ pre post, (∀ a ∈ pre, Spec.IsElem K.bits a = true) →
      ((∃ e, step cfg K l (.extend (.list (pre ++ .int v :: post))) = .exc (l ++ pre.map Spec.argVal) e) ↔ ¬ FitsS 64 v) ∧
      ((∃ e, step cfg K l (.iadd (.list (pre ++ .int v :: post))) = .exc (l ++ pre.map Spec.argVal) e) ↔ ¬ FitsS 64 v)) ∧
    (∀ i, ∃ e, step cfg K l (.insert i (.int v)) = .exc l e) := by
  refine ⟨?_, ?_, ?_, ?_⟩
  · by_cases h : FitsS 64 v
    · simp [step, append, toElem_int64 K h, h]
    · simp [step, append, toElem_big K h, h]
  · intro i h1 h2 h3
    simp only [step, assSubscript, asSsizeIndex, if_pos h3, setItem]
    have hi : ¬ ((if i < 0 then (l.length : Int) + i else i) < 0 ∨ (if i < 0 then (l.length : Int) + i else i) ≥ l.length) := by
      split <;> omega
    rw [if_neg hi]
    by_cases h : FitsS 64 v
    · simp only [toElem_int64 K h]
      rw [if_pos (by split <;> omega)]
      simp [h]
    · simp [toElem_big K h, h]
  · intro pre post hp
    have := extendLoop_pre K pre post v hp l
    constructor
    · rw [← this]
      exact exc_iff rfl
    · rw [← this]
      exact exc_iff rfl
  · intro i
    have := C02_refused_partial cfg K l (.insert i (.int v)) (.int v) v rfl hv (by simp [Spec.storedArgs]) (Or.inr ⟨i, rfl⟩)
      (by intro w h; cases h)
    obtain ⟨l', e, h⟩ := this
    have hl : l' = l := by
      simp only [step, ArrayList.insert] at h
      split at h
      · cases h; rfl
      · cases h; rfl
      · rcases ite_or h with h | h <;> cases h
    exact ⟨e, hl ▸ h⟩

example : ¬ FitsS Kind.i32.bits (2 ^ 40) ∧ FitsS 64 (2 ^ 40) ∧ ¬ FitsS Kind.i64.bits (2 ^ 63) := by decide

end Verif.Props
