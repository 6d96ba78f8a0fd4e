import Verif.Lemmas.LifeStep

/-!
# Nested lists
-/

namespace Verif.Life

open Verif.Spec.Life

/-- The lists of `nested n` in memory. -/
def Chain (n : Nat) (h : Heap) : Prop :=
  ∀ i, i ≤ n → ∃ b, h.cells i = some ⟨1, .objArray, .made (if i = 0 then [] else [.obj (i - 1)]), b⟩

theorem chain_overflow : ∀ (D n : Nat) (h : Heap), Chain n h → D ≤ n → decref D h n = .error .stackOverflow
  | 0, _, _, _, _ => rfl
  | D + 1, n, h, hc, hD => by
    obtain ⟨b, hb⟩ := hc n (Nat.le_refl _)
    rw [if_neg (by omega)] at hb
    simp only [decref, hb, Cell.refs, Body.items, List.filterMap_cons, List.filterMap_nil, Elem.ref?, Class.linked,
      Nat.lt_irrefl, if_false, Bool.false_and, Bool.false_eq_true, List.foldlM_cons]
    rw [chain_overflow D (n - 1)]
    · rfl
    · intro i hi
      obtain ⟨b', hb'⟩ := hc i (by omega)
      exact ⟨b', by dsimp only; rw [upd_ne _ _ (by omega)]; exact hb'⟩
    · omega

theorem run_append (D : Nat) : ∀ (a b : List Ev) (w w' : World), run D w a = .ok w' → run D w (a ++ b) = run D w' b
  | [], _, _, _, h => by cases h; rfl
  | e :: a, b, w, w', h => by
    simp only [run, List.cons_append] at h ⊢
    revert h
    generalize step D w e = r
    intro h
    match r with
    | .ok w1 _ => exact run_append D a b w1 w' h
    | .exc w1 _ => exact run_append D a b w1 w' h
    | .pending w1 _ _ => exact run_append D a b w1 w' h
    | .ub u => cases h

theorem never_append (bad : World → Ev → Bool) (D : Nat) : ∀ (a b : List Ev) (w w' : World), run D w a = .ok w' →
    Never bad D w a → Never bad D w' b → Never bad D w (a ++ b)
  | [], _, _, _, h, _, hb => by cases h; exact hb
  | e :: a, b, w, w', h, ha, hb => by
    refine ⟨ha.1, fun w1 h1 => ?_⟩
    refine never_append bad D a b w1 w' ?_ (ha.2 w1 h1) hb
    simp only [run] at h
    revert h1 h
    generalize step D w e = r
    intro h h1
    match r with
    | .ok w1 _ => cases h1; exact h
    | .exc w1 _ => cases h1; exact h
    | .pending w1 _ _ => cases h1; exact h
    | .ub u => cases h

theorem nested_spec (D : Nat) : ∀ n, ∃ h, run (D + 1) empty (nested n) = .ok ⟨h, [n]⟩ ∧ h.next = n + 1 ∧ Chain n h ∧
    Never sharing (D + 1) empty (nested n) ∧ Never again (D + 1) empty (nested n)
  | 0 => by
    refine ⟨_, rfl, rfl, ?_, ⟨rfl, fun _ _ => trivial⟩, rfl, fun _ _ => trivial⟩
    intro i hi
    obtain rfl : i = 0 := by omega
    exact ⟨_, rfl⟩
  | n + 1 => by
    obtain ⟨h, hr, hn, hc, hs, ha⟩ := nested_spec D n
    obtain ⟨b, hb⟩ := hc n (Nat.le_refl _)
    have h1 : ∃ h1, step (D + 1) ⟨h, [n]⟩ (.create .objArray [.obj n] false) = .ok ⟨h1, [n + 1, n]⟩ (.new (n + 1)) ∧
        h1.next = n + 2 ∧ (∀ i, i < n → h1.cells i = h.cells i) ∧
        h1.cells n = some ⟨2, .objArray, .made (if n = 0 then [] else [.obj (n - 1)]), b⟩ ∧
        h1.cells (n + 1) = some ⟨1, .objArray, .made [.obj n], 1⟩ := by
      have e1 : n ≠ n + 1 := by omega
      simp only [step, World.may, Class.holds, List.all_cons, List.all_nil, List.contains_cons, List.contains_nil,
        beq_self_eq_true, Bool.true_or, Bool.and_true, initBody, increfAll, Elem.ref?, List.filterMap_cons, List.filterMap_nil,
        List.foldlM_cons, List.foldlM_nil, incref, Heap.put, alloc, hn, upd_ne _ _ e1, hb]
      refine ⟨_, rfl, ?_, ?_, ?_, ?_⟩
      · simp
      · intro i hi
        dsimp only
        rw [upd_ne _ _ (by omega), upd_ne _ _ (by omega), upd_ne _ _ (by omega)]
      · dsimp only
        rw [upd_self]
      · dsimp only
        rw [upd_ne _ _ (by omega), upd_self]
        rfl
    obtain ⟨h1, e1, n1, c1, c2, c3⟩ := h1
    have h2 : step (D + 1) ⟨h1, [n + 1, n]⟩ (.drop n) = .ok ⟨h1.put n ⟨1, .objArray, .made (if n = 0 then [] else [.obj (n - 1)]), b⟩,
        [n + 1]⟩ .none := by
      simp [step, decref, c2, finish]
    refine ⟨h1.put n ⟨1, .objArray, .made (if n = 0 then [] else [.obj (n - 1)]), b⟩, ?_, ?_, ?_, ?_, ?_⟩
    · rw [nested, run_append _ _ _ _ _ hr]
      simp only [run, e1, h2]
    · simp [Heap.put, n1]
    · intro i hi
      by_cases hi1 : i = n + 1
      · subst hi1
        exact ⟨1, by simp only [Heap.put]; rw [upd_ne _ _ (by omega), c3]; simp⟩
      · by_cases hi2 : i = n
        · subst hi2
          exact ⟨b, by simp only [Heap.put, upd_self]⟩
        · obtain ⟨b', hb'⟩ := hc i (by omega)
          exact ⟨b', by simp only [Heap.put]; rw [upd_ne _ _ hi2, c1 i (by omega), hb']⟩
    · refine never_append _ _ _ _ _ _ hr hs ⟨rfl, fun w' _ => ⟨rfl, fun _ _ => trivial⟩⟩
    · refine never_append _ _ _ _ _ _ hr ha ⟨rfl, fun w' _ => ⟨rfl, fun _ _ => trivial⟩⟩

end Verif.Life
