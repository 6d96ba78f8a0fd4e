import Verif.Props.IntValues

/-!
# C49: exactly what the constructor of an int array list keeps and refuses
-/

namespace Verif.Props

open Verif Verif.ArrayList

/-- Integers of the machine word: what the constructor takes. -/
def C49_Word : Arg → Bool
  | .int v | .index v => decide (FitsS 64 v)
  | .other => false

private theorem toElem_word (K : Kind) {a : Arg} (h : C49_Word a = true) : toElem K a = (wrapS K.bits (Spec.argVal a), none) := by
  cases a with
  | other => cases h
  | int v | index v =>
    have h : FitsS 64 v := of_decide_eq_true h
    simp only [toElem, asLong, if_pos h, Spec.argVal]

private theorem toElem_bad (K : Kind) {a : Arg} (h : C49_Word a = false) : ∃ e, (toElem K a).2 = some e := by
  cases a with
  | other => exact ⟨_, rfl⟩
  | int v | index v =>
    have h : ¬ FitsS 64 v := of_decide_eq_false h
    exact ⟨.overflowError, by simp only [toElem, asLong, if_neg h]⟩

private theorem initLoop_word (K : Kind) (xs : List Arg) (acc : List Int) :
    initLoop K xs acc = (acc ++ (xs.takeWhile C49_Word).map (fun a => wrapS K.bits (Spec.argVal a)),
      if xs.all C49_Word then none else some .runtimeError) := by
  induction xs generalizing acc with
  | nil => simp [initLoop]
  | cons a as ih =>
    cases h : C49_Word a with
    | true =>
      simp only [initLoop, toElem_word K h]
      rw [ih]
      simp [h]
    | false =>
      obtain ⟨e, he⟩ := toElem_bad K h
      simp [initLoop, he, h]

private theorem init_word (K : Kind) (s : Src) (xs : List Arg) (hs : Spec.items [] s = .ok (xs, none))
    (hsame : ∀ v, s ≠ .same v) (hself : s ≠ .self) :
    init K (some (.inr s)) =
      if xs.all C49_Word then .ok (xs.map fun a => wrapS K.bits (Spec.argVal a)) ()
      else .exc ((xs.takeWhile C49_Word).map fun a => wrapS K.bits (Spec.argVal a)) .runtimeError := by
  have hall : xs.all C49_Word = true → xs.takeWhile C49_Word = xs := by
    intro h
    clear hs
    induction xs with
    | nil => rfl
    | cons a as ih =>
      rw [List.all_cons, Bool.and_eq_true] at h
      rw [List.takeWhile_cons, if_pos h.1, ih h.2]
  cases s with
  | same v => exact absurd rfl (hsame v)
  | self => exact absurd rfl hself
  | notIterable => cases hs
  | list ys | tuple ys | seq ys | seqNoLen ys =>
    simp only [Spec.items, Except.ok.injEq, Prod.mk.injEq, and_true] at hs
    subst hs
    simp only [init, initLoop_word, List.nil_append]
    cases h : ys.all C49_Word with
    | true => simp only [if_true, hall h]
    | false => simp only [Bool.false_eq_true, if_false]
  | iter ys f =>
    simp only [Spec.items, Except.ok.injEq, Prod.mk.injEq] at hs
    obtain ⟨rfl, rfl⟩ := hs
    simp only [init, initLoop_word, List.nil_append]
    cases h : ys.all C49_Word with
    | true => simp only [if_true, hall h]
    | false => simp only [Bool.false_eq_true, if_false]

/-- C49, exactly: the constructor on an iterable (not a list of its own class, which is copied) yields the
items given if and only if each is an integer of the element type. -/
theorem C49_init_exact (K : Kind) (s : Src) (xs : List Arg) (hs : Spec.items [] s = .ok (xs, none))
    (hsame : ∀ v, s ≠ .same v) (hself : s ≠ .self) :
    init K (some (.inr s)) = .ok (xs.map Spec.argVal) () ↔ ∀ a ∈ xs, Spec.IsElem K.bits a = true := by
  constructor
  · intro h a ha
    rw [init_word K s xs hs hsame hself] at h
    cases hall : xs.all C49_Word with
    | false => rw [hall] at h; cases h
    | true =>
      rw [hall] at h
      simp only [if_true, Out.ok.injEq, and_true] at h
      have hw := List.all_eq_true.1 hall a ha
      have hv := List.map_inj_left.1 h a ha
      have hfit := wrapS_fits K (Spec.argVal a)
      rw [hv] at hfit
      cases a with
      | other => cases hw
      | int v | index v => exact decide_eq_true hfit
  · exact C49_init K s xs hs hself

/-- C49, exactly: the constructor raises if and only if an item is no integer of the machine word, and then the
exception is RuntimeError. So the integers beyond the element type but within 64 bits are accepted and stored
as other values (`C49_init_exact`). -/
theorem C49_raises_exact (K : Kind) (s : Src) (xs : List Arg) (hs : Spec.items [] s = .ok (xs, none))
    (hsame : ∀ v, s ≠ .same v) (hself : s ≠ .self) (e : Exc) :
    (∃ l, init K (some (.inr s)) = .exc l e) ↔ e = .runtimeError ∧ ∃ a ∈ xs, C49_Word a = false := by
  rw [init_word K s xs hs hsame hself]
  cases hall : xs.all C49_Word with
  | true =>
    constructor
    · rintro ⟨l, h⟩; cases h
    · rintro ⟨_, a, ha, h⟩
      rw [List.all_eq_true.1 hall a ha] at h
      cases h
  | false =>
    have : ∃ a ∈ xs, C49_Word a = false := by
      obtain ⟨a, ha, h⟩ := List.all_eq_false.1 hall
      exact ⟨a, ha, by simpa using h⟩
    constructor
    · rintro ⟨l, h⟩; cases h; exact ⟨rfl, this⟩
    · rintro ⟨rfl, _⟩; exact ⟨_, rfl⟩

example : Spec.items [] (.iter [.int 5, .index (2 ^ 40)] none) = .ok ([.int 5, .index (2 ^ 40)], none) ∧
    Spec.IsElem Kind.i32.bits (.index (2 ^ 40)) = false ∧ C49_Word (.index (2 ^ 40)) = true ∧ C49_Word (.int (2 ^ 63)) = false :=
  ⟨rfl, by decide, by decide, by decide⟩

end Verif.Props
