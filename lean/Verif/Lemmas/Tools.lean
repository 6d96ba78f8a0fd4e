import Verif.Model.Tools
import Verif.Spec.Tools
import Mathlib.Logic.Basic

/-!
# Lemmas about the method tables
-/

namespace Verif.Tools

open Verif.With (Shape)
open Verif.Tools.Spec

/-- The convention insists on `n` arguments and looks at no more. -/
def Conv.exact : Conv → Nat → Bool
  | .noArgs, n => n = 0
  | .one, n => n = 1
  | .tuple f, n => n = f.length
  | .fast (some k) r, n => k = n ∧ r ≤ n
  | .fast none _, _ => false

/-- An entry and its stub are of one of the kinds that are treated below. -/
def okEntry (c : Cls) (name : String) (e : Entry) (p : Params) : Bool :=
  if name = "__exit__" then e = ⟨.fast none 0, false⟩ ∧ p = .named ["exc_type", "exc_val", "exc_tb"]
  else
    match p with
    | .named _ => false
    | .positional n =>
      if c = .asm ∧ name ∈ asmNames then
        n = 1 ∧ e.windowsOnly = true ∧ (if name ∈ asmFast then e.conv = .fast none 1 else e.conv = .fast (some 1) 1)
      else e.conv.exact n && !e.windowsOnly && !(decide (c = .asm ∧ name ∈ asmFast))

/-- Table and stub side by side. -/
def both (c : Cls) : List (String × Entry × Params) :=
  ((table c).zip (stub c)).map fun x => (x.1.1, x.1.2, x.2.2)

theorem both_table (c : Cls) : (both c).map (fun x => (x.1, x.2.1)) = table c := by
  cases c <;> decide +kernel

theorem both_stub (c : Cls) : (both c).map (fun x => (x.1, x.2.2)) = stub c := by
  cases c <;> decide +kernel

theorem both_ok (c : Cls) : ∀ x ∈ both c, okEntry c x.1 x.2.1 x.2.2 = true := by
  cases c <;> decide +kernel

theorem lookup_map {α β : Type} (f : α → β) (name : String) (l : List (String × α)) :
    List.lookup name (l.map fun x => (x.1, f x.2)) = (List.lookup name l).map f := by
  induction l with
  | nil => rfl
  | cons x l ih =>
    rw [List.map_cons, List.lookup_cons, List.lookup_cons]
    cases name == x.1
    · exact ih
    · rfl

theorem lookup_table (c : Cls) (name : String) :
    List.lookup name (table c) = (List.lookup name (both c)).map Prod.fst := by
  rw [← both_table, ← lookup_map]

theorem lookup_stub (c : Cls) (name : String) :
    List.lookup name (stub c) = (List.lookup name (both c)).map Prod.snd := by
  rw [← both_stub, ← lookup_map]

theorem mem_of_lookup {α : Type} {name : String} {l : List (String × α)} {v : α} (h : List.lookup name l = some v) :
    (name, v) ∈ l := by
  induction l with
  | nil => cases h
  | cons x l ih =>
    rw [List.lookup_cons] at h
    cases hx : name == x.1
    · rw [hx] at h
      exact List.mem_cons_of_mem _ (ih h)
    · rw [hx] at h
      cases h
      rw [eq_of_beq hx]
      exact List.mem_cons_self

theorem lookup_of_mem {α : Type} {name : String} {l : List (String × α)} {v : α} (h : (name, v) ∈ l) :
    ∃ w, List.lookup name l = some w := by
  induction l with
  | nil => cases h
  | cons x l ih =>
    rw [List.lookup_cons]
    cases hx : name == x.1
    · refine ih ?_
      rcases List.mem_cons.1 h with h | h
      · rw [← h] at hx
        simp at hx
      · exact h
    · exact ⟨_, rfl⟩

theorem documented_iff (c : Cls) (name : String) : Documented c name ↔ ∃ x, List.lookup name (both c) = some x := by
  constructor
  · rintro ⟨p, hp⟩
    obtain ⟨w, hw⟩ := lookup_of_mem hp
    rw [lookup_stub] at hw
    cases h : List.lookup name (both c) with
    | none => rw [h] at hw; cases hw
    | some x => exact ⟨x, rfl⟩
  · rintro ⟨x, hx⟩
    refine ⟨x.2, mem_of_lookup (v := x.2) ?_⟩
    rw [lookup_stub, hx]
    rfl

theorem fits_positional (a : Shape) (n : Nat) : Fits a (.positional n) ↔ a.pos = n ∧ a.kw = [] := Iff.rfl

/-- An entry that insists on the documented number of arguments. -/
theorem exact_call {windows : Bool} {e : Entry} {n : Nat} (he : e.conv.exact n = true) (hw : e.windowsOnly = false) (a : Shape) :
    e.call windows a = if Fits a (.positional n) then .reached else .raised .typeError := by
  simp only [fits_positional]
  unfold Entry.call
  by_cases hk : a.kw = []
  · rw [if_neg (not_not.2 hk)]
    simp only [hk, and_true]
    obtain ⟨conv, w⟩ := e
    dsimp only at he hw ⊢
    subst hw
    cases conv with
    | noArgs =>
      simp only [Conv.exact, decide_eq_true_eq] at he
      subst he
      by_cases h : a.pos = 0 <;> simp [h]
    | one =>
      simp only [Conv.exact, decide_eq_true_eq] at he
      subst he
      by_cases h : a.pos = 1 <;> simp [h]
    | tuple f =>
      simp only [Conv.exact, decide_eq_true_eq] at he
      subst he
      by_cases h : a.pos = f.length <;> simp [h]
    | fast check reads =>
      cases check with
      | none => cases he
      | some k =>
        simp only [Conv.exact, decide_eq_true_eq] at he
        obtain ⟨rfl, hr⟩ := he
        by_cases h : a.pos = k
        · simp [h, Nat.not_lt.2 hr]
        · simp [h]
  · rw [if_pos hk, if_neg (fun h => hk h.2)]

/-- One entry against its stub. -/
theorem entry_iff {windows : Bool} {c : Cls} {name : String} {e : Entry} {p : Params} (h : okEntry c name e p = true)
    (a : Shape) :
    e.call windows a = (if Fits a p then .reached else .raised .typeError) ↔ ¬ Deviates windows c name a := by
  unfold okEntry at h
  by_cases hx : name = "__exit__"
  · rw [if_pos hx] at h
    simp only [Bool.decide_and, Bool.and_eq_true, decide_eq_true_eq] at h
    obtain ⟨rfl, rfl⟩ := h
    subst hx
    have hn : "__exit__" ∉ asmNames ∧ "__exit__" ∉ asmFast := by decide
    unfold Deviates
    simp only [hn.1, hn.2, false_and, and_false, false_or, true_and]
    by_cases hk : a.kw = []
    · have hf : Fits a (.named ["exc_type", "exc_val", "exc_tb"]) ↔ a.pos = 3 := by
        show a.pos ≤ _ ∧ a.kw.Perm _ ↔ _
        rw [hk, List.nil_perm, List.drop_eq_nil_iff]
        simp only [List.length_cons, List.length_nil]
        omega
      simp only [Entry.call, hk, ne_eq, not_true_eq_false, if_false, Bool.false_and, Nat.not_lt_zero, hf]
      by_cases h3 : a.pos = 3 <;> simp [h3]
    · simp only [Entry.call, if_pos hk, hk, false_and, false_or, ne_eq, not_false_eq_true, true_and]
      by_cases hf : Fits a (.named ["exc_type", "exc_val", "exc_tb"]) <;> simp [hf]
  · rw [if_neg hx] at h
    cases p with
    | named ps => cases h
    | positional n =>
      dsimp only at h
      by_cases ha : c = .asm ∧ name ∈ asmNames
      · rw [if_pos ha] at h
        obtain ⟨rfl, hm⟩ := ha
        simp only [Bool.decide_and, Bool.and_eq_true, decide_eq_true_eq] at h
        obtain ⟨rfl, hw, hc⟩ := h
        unfold Deviates
        simp only [fits_positional, hx, hm, false_and, or_false, true_and]
        by_cases hk : a.kw = []
        · simp only [hk, and_true, true_and]
          cases windows with
          | false =>
            have : e.call false a = .raised .notImplementedError := by
              unfold Entry.call
              rw [if_neg (not_not.2 hk)]
              by_cases hf : name ∈ asmFast
              · rw [if_pos hf] at hc; rw [hc, hw]; rfl
              · rw [if_neg hf] at hc; rw [hc, hw]; rfl
            rw [this]
            by_cases h1 : a.pos = 1 <;> simp [h1]
          | true =>
            unfold Entry.call
            rw [if_neg (not_not.2 hk)]
            by_cases hf : name ∈ asmFast
            · rw [if_pos hf] at hc
              rw [hc, hw]
              by_cases h1 : a.pos = 1
              · simp [h1]
              · by_cases h0 : a.pos = 0
                · simp [h0, hf]
                · have : ¬ a.pos < 1 := by omega
                  simp [h1, hf, this]
            · rw [if_neg hf] at hc
              rw [hc, hw]
              by_cases h1 : a.pos = 1 <;> simp [h1, hf]
        · simp [Entry.call, hk]
      · rw [if_neg ha] at h
        simp only [Bool.and_eq_true, Bool.not_eq_true', decide_eq_false_iff_not] at h
        obtain ⟨⟨he, hw⟩, hf⟩ := h
        rw [exact_call he hw]
        refine iff_of_true rfl ?_
        unfold Deviates
        rintro (⟨h1, _, h2, _⟩ | ⟨h1, _, h2, _⟩ | ⟨h1, _⟩ | ⟨h1, _⟩)
        · exact ha ⟨h1, h2⟩
        · exact hf ⟨h1, h2⟩
        · exact hx h1
        · exact hx h1

end Verif.Tools
