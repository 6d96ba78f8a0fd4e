import Verif.Spec.Iter

/-!
# C20, C21: exactly when an iterator of an array list answers as Python's
-/

namespace Verif.Props

open Verif

theorem fwd_cons_lt {l : List α} {ls : List (List α)} {i : Nat} (h : i < l.length) :
    ArrIter.run ⟨some i, false⟩ (l :: ls) = .yield l[i] :: ArrIter.run ⟨some (i + 1), false⟩ ls ∧
    Spec.iterRun i (l :: ls) = .yield l[i] :: Spec.iterRun (i + 1) ls := by
  have hne : l.isEmpty = false := by cases l <;> simp_all
  constructor
  · simp [ArrIter.run, ArrIter.next, ArrIter.read, hne, h, Nat.not_le.2 h]
  · simp [Spec.iterRun, h]

theorem fwd_cons_ge {l : List α} {ls : List (List α)} {i : Nat} (h : l.length ≤ i) :
    ArrIter.run ⟨some i, false⟩ (l :: ls) = .stop :: ArrIter.run ⟨some i, false⟩ ls ∧
    Spec.iterRun i (l :: ls) = .stop :: ls.map fun _ => .stop := by
  constructor
  · cases l <;> simp_all [ArrIter.run, ArrIter.next]
  · simp [Spec.iterRun, List.getElem?_eq_none h]

theorem fwd_stopped (ls : List (List α)) (i : Nat) :
    ArrIter.run ⟨some i, false⟩ ls = ls.map (fun _ => .stop) ↔ ∀ l ∈ ls, l.length ≤ i := by
  induction ls with
  | nil => simp [ArrIter.run]
  | cons l ls ih =>
    by_cases h : l.length ≤ i
    · rw [(fwd_cons_ge h).1, List.map_cons, List.cons.injEq]
      simp [ih, h]
    · rw [(fwd_cons_lt (Nat.not_le.1 h)).1]
      refine iff_of_false (by simp) (fun H => h (H l (by simp)))

/-- C20, exactly: the iterator answers as Python's if and only if the list never becomes longer, after the first call that found
no element, than it would have to be for another one (that call, number `k`, came after `k` elements). The lists `ls` are the
contents found by the calls, whatever happened in between. -/
theorem C20_exact (l0 : List α) (ls : List (List α)) :
    (ArrIter.create l0 false).run ls = Spec.iterRun 0 ls ↔
      ∀ k, (hk : k < ls.length) → (∀ j, (hj : j < k) → j < ls[j].length) → ls[k].length ≤ k →
        ∀ m, (hm : m < ls.length) → k ≤ m → ls[m].length ≤ k := by
  have main : ∀ (ls : List (List α)) (i : Nat),
      ArrIter.run ⟨some i, false⟩ ls = Spec.iterRun i ls ↔
        ∀ k, (hk : k < ls.length) → (∀ j, (hj : j < k) → i + j < ls[j].length) → ls[k].length ≤ i + k →
          ∀ m, (hm : m < ls.length) → k ≤ m → ls[m].length ≤ i + k := by
    intro ls
    induction ls with
    | nil => intro i; exact iff_of_true rfl (fun k hk => absurd hk (by simp))
    | cons l ls ih =>
      intro i
      by_cases h : l.length ≤ i
      · rw [(fwd_cons_ge h).1, (fwd_cons_ge h).2, List.cons.injEq]
        simp only [true_and]
        rw [fwd_stopped]
        constructor
        · intro H k hk hj hle m hm hkm
          cases k with
          | zero =>
            cases m with
            | zero => simpa using h
            | succ m => simpa using H _ (List.getElem_mem (by simpa using hm))
          | succ k =>
            have := hj 0 (by omega)
            simp at this
            omega
        · intro H x hx
          obtain ⟨m, hm, rfl⟩ := List.mem_iff_getElem.1 hx
          have := H 0 (by simp) (fun j hj => absurd hj (by omega)) (by simpa using h) (m + 1) (by simpa using hm) (by omega)
          simpa using this
      · have h := Nat.not_le.1 h
        rw [(fwd_cons_lt h).1, (fwd_cons_lt h).2, List.cons.injEq]
        simp only [true_and]
        rw [ih]
        constructor
        · intro H k hk hj hle m hm hkm
          cases k with
          | zero => simp at hle; omega
          | succ k =>
            cases m with
            | zero => omega
            | succ m =>
              have := H k (by simpa using hk) (fun j hj' => by
                have := hj (j + 1) (by omega)
                simp only [List.getElem_cons_succ] at this
                omega) (by simp only [List.getElem_cons_succ] at hle; omega) m (by simpa using hm) (by omega)
              simp only [List.getElem_cons_succ]
              omega
        · intro H k hk hj hle m hm hkm
          have := H (k + 1) (by simpa using hk) (fun j hj' => by
            cases j with
            | zero => simpa using h
            | succ j =>
              have := hj j (by omega)
              simp only [List.getElem_cons_succ]
              omega) (by simp only [List.getElem_cons_succ]; omega) (m + 1) (by simpa using hm) (by omega)
          simp only [List.getElem_cons_succ] at this
          omega
  have := main ls 0
  simp only [Nat.zero_add] at this
  simpa [ArrIter.create] using this

example : (ArrIter.create [1, 2] false).run [[1, 2], [7], [1], []] = Spec.iterRun 0 [[1, 2], [7], [1], []] := by decide
example : (ArrIter.create [1, 2] false).run [[1, 2], [7], [1, 2]] ≠ Spec.iterRun 0 [[1, 2], [7], [1, 2]] := by decide

/-! ## Reverse -/

theorem rev_cons_lt {l : List α} {ls : List (List α)} {i : Nat} (h : i < l.length) :
    ArrIter.run ⟨some i, true⟩ (l :: ls) =
      .yield l[i] :: ArrIter.run ⟨if i = 0 then none else some (i - 1), true⟩ ls ∧
    Spec.revRun (i + 1) (l :: ls) = .yield l[i] :: Spec.revRun i ls := by
  have hne : l.isEmpty = false := by cases l <;> simp_all
  constructor
  · cases i <;> simp [ArrIter.run, ArrIter.next, ArrIter.read, hne, h]
  · simp [Spec.revRun, h]

theorem rev_cons_nil {ls : List (List α)} {i : Nat} :
    ArrIter.run ⟨some i, true⟩ ([] :: ls) = .stop :: ArrIter.run ⟨some i, true⟩ ls ∧
    Spec.revRun (i + 1) ([] :: ls) = .stop :: ls.map fun _ => .stop := by
  constructor <;> simp [ArrIter.run, ArrIter.next, Spec.revRun]

theorem rev_cons_ge {l : List α} {ls : List (List α)} {i : Nat} (hl : l ≠ []) (h : l.length ≤ i) :
    ArrIter.run ⟨some i, true⟩ (l :: ls) = [.ub .outOfBounds] ∧
    Spec.revRun (i + 1) (l :: ls) = .stop :: ls.map fun _ => .stop := by
  have hne : l.isEmpty = false := by cases l <;> simp_all
  have hg : l[i]? = none := List.getElem?_eq_none h
  constructor
  · cases i with
    | zero => cases l <;> simp_all
    | succ i => simp [ArrIter.run, ArrIter.next, ArrIter.read, hne, hg]
  · simp [Spec.revRun, hg]

theorem rev_done (ls : List (List α)) :
    ArrIter.run ⟨none, true⟩ ls = ls.map (fun _ => .stop) ∧ Spec.revRun 0 ls = ls.map (fun _ => .stop) := by
  constructor
  · induction ls with
    | nil => rfl
    | cons l ls ih => cases l <;> simp [ArrIter.run, ArrIter.next, ih]
  · cases ls <;> rfl

theorem rev_stopped (ls : List (List α)) (i : Nat) :
    ArrIter.run ⟨some i, true⟩ ls = ls.map (fun _ => .stop) ↔ ∀ l ∈ ls, l = [] := by
  induction ls with
  | nil => simp [ArrIter.run]
  | cons l ls ih =>
    by_cases h : l = []
    · subst h
      rw [rev_cons_nil.1, List.map_cons, List.cons.injEq]
      simp [ih]
    · refine iff_of_false ?_ (fun H => h (H l (by simp)))
      by_cases hi : i < l.length
      · rw [(rev_cons_lt hi).1]; simp
      · rw [(rev_cons_ge h (by omega)).1]; simp

theorem rev_exact (ls : List (List α)) (i : Nat) :
    ArrIter.run ⟨some i, true⟩ ls = Spec.revRun (i + 1) ls ↔
      ∀ k, (hk : k < ls.length) → k ≤ i → (∀ j, (hj : j < k) → i - j < ls[j].length) → ls[k].length ≤ i - k →
        ∀ m, (hm : m < ls.length) → k ≤ m → ls[m] = [] := by
  induction ls generalizing i with
  | nil => exact iff_of_true rfl (fun k hk => absurd hk (by simp))
  | cons l ls ih =>
    by_cases h : i < l.length
    · rw [(rev_cons_lt h).1, (rev_cons_lt h).2, List.cons.injEq]
      simp only [true_and]
      cases i with
      | zero =>
        rw [if_pos rfl, (rev_done ls).1, (rev_done ls).2]
        refine iff_of_true rfl (fun k hk hki hj hle => ?_)
        have : k = 0 := by omega
        subst this
        simp at hle
        subst hle
        simp at h
      | succ i =>
        rw [if_neg (by omega), Nat.add_sub_cancel, ih]
        constructor
        · intro H k hk hki hj hle m hm hkm
          cases k with
          | zero => simp at hle; omega
          | succ k =>
            cases m with
            | zero => omega
            | succ m =>
              simp only [List.getElem_cons_succ]
              refine H k (by simpa using hk) (by omega) (fun j hj' => ?_) ?_ m (by simpa using hm) (by omega)
              · have := hj (j + 1) (by omega)
                simp only [List.getElem_cons_succ] at this
                omega
              · simp only [List.getElem_cons_succ] at hle
                omega
        · intro H k hk hki hj hle m hm hkm
          have := H (k + 1) (by simpa using hk) (by omega) (fun j hj' => ?_) ?_ (m + 1) (by simpa using hm) (by omega)
          · simpa using this
          · cases j with
            | zero => simpa using h
            | succ j =>
              have := hj j (by omega)
              simp only [List.getElem_cons_succ]
              omega
          · simp only [List.getElem_cons_succ]
            omega
    · have h := Nat.not_lt.1 h
      by_cases hl : l = []
      · subst hl
        rw [rev_cons_nil.1, rev_cons_nil.2, List.cons.injEq]
        simp only [true_and]
        rw [rev_stopped]
        constructor
        · intro H k hk hki hj hle m hm hkm
          cases m with
          | zero => rfl
          | succ m => exact H _ (List.getElem_mem (by simpa using hm))
        · intro H x hx
          obtain ⟨m, hm, rfl⟩ := List.mem_iff_getElem.1 hx
          exact H 0 (by simp) (by omega) (fun j hj => absurd hj (by omega)) (by simp) (m + 1) (by simpa using hm) (by omega)
      · rw [(rev_cons_ge hl h).1, (rev_cons_ge hl h).2]
        refine iff_of_false (by simp) (fun H => hl ?_)
        exact H 0 (by simp) (by omega) (fun j hj => absurd hj (by omega)) (by simpa using h) 0 (by simp) (by omega)

/-- C21, exactly: an iterator made by `reversed` on a list of `n` elements answers as Python's if and only if, once the list is
too short for the next element (at call `k` for the element `n - 1 - k`), it is empty and stays empty. -/
theorem C21_exact (l0 : List α) (ls : List (List α)) (hne : l0 ≠ []) :
    (ArrIter.create l0 true).run ls = Spec.revRun l0.length ls ↔
      ∀ k, (hk : k < ls.length) → k < l0.length → (∀ j, (hj : j < k) → l0.length - 1 - j < ls[j].length) →
        ls[k].length ≤ l0.length - 1 - k → ∀ m, (hm : m < ls.length) → k ≤ m → ls[m] = [] := by
  have hpos : 0 < l0.length := List.length_pos_iff.2 hne
  have hemp : l0.isEmpty = false := by cases l0 <;> simp_all
  have := rev_exact ls (l0.length - 1)
  rw [show l0.length - 1 + 1 = l0.length by omega] at this
  have hc : ArrIter.create l0 true = ⟨some (l0.length - 1), true⟩ := by simp [ArrIter.create, hemp]
  rw [hc, this]
  exact ⟨fun H k hk hki => H k hk (by omega), fun H k hk hki => H k hk (by omega)⟩

/-- C21, exactly, for an iterator made on an empty list: the list stays empty. -/
theorem C21_exact_empty (ls : List (List α)) :
    (ArrIter.create ([] : List α) true).run ls = Spec.revRun 0 ls ↔ ∀ l ∈ ls, l = [] := by
  rw [(rev_done ls).2]
  exact rev_stopped ls 0

/-- C21, memory: no call reads outside of the list if and only if each call that finds a nonempty list finds it long enough for
the position that the calls on nonempty lists before have led to. -/
theorem C21_safe_exact (l0 : List α) (ls : List (List α)) :
    (∀ u, Next.ub u ∉ (ArrIter.create l0 true).run ls) ↔
      ∀ k, (hk : k < ls.length) → ls[k] ≠ [] →
        (ls.take k).countP (fun l => !l.isEmpty) < l0.length →
        l0.length - 1 - (ls.take k).countP (fun l => !l.isEmpty) < ls[k].length := by
  have main : ∀ (ls : List (List α)) (i : Nat),
      (∀ u, Next.ub u ∉ ArrIter.run ⟨some i, true⟩ ls) ↔
        ∀ k, (hk : k < ls.length) → ls[k] ≠ [] → (ls.take k).countP (fun l => !l.isEmpty) ≤ i →
          i - (ls.take k).countP (fun l => !l.isEmpty) < ls[k].length := by
    intro ls
    induction ls with
    | nil => intro i; exact iff_of_true (by simp [ArrIter.run]) (fun k hk => absurd hk (by simp))
    | cons l ls ih =>
      intro i
      by_cases hl : l = []
      · subst hl
        rw [rev_cons_nil.1]
        simp only [List.mem_cons, reduceCtorEq, false_or]
        rw [ih]
        constructor
        · intro H k hk hne hc
          cases k with
          | zero => exact absurd rfl hne
          | succ k => simpa using H k (by simpa using hk) (by simpa using hne) (by simpa using hc)
        · intro H k hk hne hc
          have := H (k + 1) (by simpa using hk) (by simpa using hne) (by simpa using hc)
          simp only [List.take_succ_cons, List.countP_cons, List.isEmpty_nil, Bool.not_true, Bool.false_eq_true, if_false,
            List.getElem_cons_succ] at this
          exact this
      · have he : l.isEmpty = false := by cases l <;> simp_all
        by_cases h : i < l.length
        · rw [(rev_cons_lt h).1]
          simp only [List.mem_cons, reduceCtorEq, false_or]
          cases i with
          | zero =>
            rw [if_pos rfl, (rev_done ls).1]
            refine iff_of_true (by simp) (fun k hk hne hc => ?_)
            exact Nat.lt_of_le_of_lt (Nat.sub_le _ _) (List.length_pos_iff.2 hne)
          | succ i =>
            rw [if_neg (by omega), Nat.add_sub_cancel, ih]
            constructor
            · intro H k hk hne hc
              cases k with
              | zero => simpa using h
              | succ k =>
                simp only [List.take_succ_cons, List.countP_cons, he, Bool.not_false, if_true] at hc ⊢
                have := H k (by simpa using hk) (by simpa using hne) (by omega)
                simp only [List.getElem_cons_succ]
                omega
            · intro H k hk hne hc
              have := H (k + 1) (by simpa using hk) (by simpa using hne) (by
                simp only [List.take_succ_cons, List.countP_cons, he, Bool.not_false, if_true]
                omega)
              simp only [List.take_succ_cons, List.countP_cons, he, Bool.not_false, if_true, List.getElem_cons_succ] at this
              omega
        · rw [(rev_cons_ge hl (by omega)).1]
          refine iff_of_false (fun H => H .outOfBounds (by simp)) (fun H => h ?_)
          exact H 0 (by simp) hl (by simp)
  by_cases hl : l0 = []
  · subst hl
    have hc : ArrIter.create ([] : List α) true = ⟨some 0, true⟩ := by simp [ArrIter.create]
    rw [hc]
    refine iff_of_true ((main ls 0).2 fun k hk hne hc => ?_) (fun k hk hne hc => absurd hc (by simp))
    exact Nat.lt_of_le_of_lt (Nat.sub_le _ _) (List.length_pos_iff.2 hne)
  · have hpos : 0 < l0.length := List.length_pos_iff.2 hl
    have hemp : l0.isEmpty = false := by cases l0 <;> simp_all
    have hc : ArrIter.create l0 true = ⟨some (l0.length - 1), true⟩ := by simp [ArrIter.create, hemp]
    rw [hc, main]
    exact ⟨fun H k hk hne h => H k hk hne (by omega), fun H k hk hne h => H k hk hne (by omega)⟩

example : (ArrIter.create [1, 2, 3] true).run [[1, 2, 3], [4, 5], [6], []] = [.yield 3, .yield 5, .yield 6, .stop] := by decide
example : (ArrIter.create [1, 2, 3] true).run [[1, 2, 3], [4]] = [.yield 3, .ub .outOfBounds] := by decide

end Verif.Props
