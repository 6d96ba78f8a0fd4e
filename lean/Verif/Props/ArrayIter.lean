import Verif.Spec.Iter

/-!
# C20, C21: iterating array lists
-/

namespace Verif.Props

open Verif

/-! ## C20: forward -/

/-- C20, memory safety and positions, for every interleaving: the answers are exactly "element at the number of
elements yielded so far, or stop", call by call; in particular never undefined behaviour. -/
theorem C20_forward_positions (l0 : List α) (ls : List (List α)) :
    ((ArrIter.create l0 false).run ls).length = ls.length ∧
    ∀ k (h : k < ls.length), ((ArrIter.create l0 false).run ls)[k]? =
      some (match ls[k][Spec.yields (((ArrIter.create l0 false).run ls).take k)]? with
        | some x => .yield x
        | none => .stop) := by
  have main : ∀ (ls : List (List α)) (i : Nat),
      (ArrIter.run ⟨some i, false⟩ ls).length = ls.length ∧
      ∀ k (h : k < ls.length), (ArrIter.run ⟨some i, false⟩ ls)[k]? =
        some (match ls[k][i + Spec.yields ((ArrIter.run ⟨some i, false⟩ ls).take k)]? with
          | some x => .yield x
          | none => .stop) := by
    intro ls
    induction ls with
    | nil => intro i; exact ⟨rfl, fun k h => absurd h (by simp)⟩
    | cons l ls ih =>
      intro i
      by_cases hi : i < l.length
      · have hne : l.isEmpty = false := by cases l <;> simp_all
        have hr : ArrIter.run ⟨some i, false⟩ (l :: ls) = .yield l[i] :: ArrIter.run ⟨some (i + 1), false⟩ ls := by
          simp [ArrIter.run, ArrIter.next, ArrIter.read, hne, hi, Nat.not_le.2 hi]
        rw [hr]
        refine ⟨by simp [(ih (i + 1)).1], fun k h => ?_⟩
        cases k with
        | zero => simp [Spec.yields, hi]
        | succ k =>
          have := (ih (i + 1)).2 k (by simpa using h)
          simp only [List.getElem?_cons_succ, List.getElem_cons_succ, List.take_succ_cons]
          rw [this]
          simp [Spec.yields, Nat.add_assoc, Nat.add_comm 1]
      · have hr : ArrIter.run ⟨some i, false⟩ (l :: ls) = .stop :: ArrIter.run ⟨some i, false⟩ ls := by
          cases l <;> simp_all [ArrIter.run, ArrIter.next]
        rw [hr]
        refine ⟨by simp [(ih i).1], fun k h => ?_⟩
        cases k with
        | zero => simp [Spec.yields, hi]
        | succ k =>
          have := (ih i).2 k (by simpa using h)
          simp only [List.getElem?_cons_succ, List.getElem_cons_succ, List.take_succ_cons]
          rw [this]
          simp [Spec.yields]
  have h := main ls 0
  simp only [Nat.zero_add] at h
  simpa [ArrIter.create] using h

/-- C20: the same answers as CPython's list iterator up to and including the first stop, for every interleaving.
Missing: after the first stop (`C20_exhausted_negation`). -/
theorem C20_forward_partial (l0 : List α) (ls : List (List α)) (k : Nat) (hk : k ≤ ls.length)
    (hns : ∀ j, j + 1 < k → (Spec.iterRun 0 ls)[j]? ≠ some .stop) :
    ((ArrIter.create l0 false).run ls).take k = (Spec.iterRun 0 ls).take k := by
  have main : ∀ (ls : List (List α)) (i k : Nat), k ≤ ls.length →
      (∀ j, j + 1 < k → (Spec.iterRun i ls)[j]? ≠ some .stop) →
      (ArrIter.run ⟨some i, false⟩ ls).take k = (Spec.iterRun i ls).take k := by
    intro ls
    induction ls with
    | nil => intro i k hk _; simp at hk; subst hk; rfl
    | cons l ls ih =>
      intro i k hk hns
      cases k with
      | zero => rfl
      | succ k =>
        by_cases hi : i < l.length
        · have hne : l.isEmpty = false := by cases l <;> simp_all
          have hr : ArrIter.run ⟨some i, false⟩ (l :: ls) = .yield l[i] :: ArrIter.run ⟨some (i + 1), false⟩ ls := by
            simp [ArrIter.run, ArrIter.next, ArrIter.read, hne, hi, Nat.not_le.2 hi]
          have hs : Spec.iterRun i (l :: ls) = .yield l[i] :: Spec.iterRun (i + 1) ls := by
            simp [Spec.iterRun, hi]
          rw [hr, hs, List.take_succ_cons, List.take_succ_cons]
          congr 1
          refine ih (i + 1) k (by simpa using hk) fun j hj => ?_
          have := hns (j + 1) (by omega)
          rw [hs] at this
          simpa using this
        · have hr : ArrIter.run ⟨some i, false⟩ (l :: ls) = .stop :: ArrIter.run ⟨some i, false⟩ ls := by
            cases l <;> simp_all [ArrIter.run, ArrIter.next]
          have hs : Spec.iterRun i (l :: ls) = .stop :: ls.map fun _ => .stop := by
            simp [Spec.iterRun, hi]
          cases k with
          | zero => rw [hr, hs]; rfl
          | succ k =>
            have := hns 0 (by omega)
            rw [hs] at this
            exact absurd rfl this
  exact main ls 0 k hk hns

example : (ArrIter.create [1, 2] false).run [[1, 2], [7], [1, 2, 3, 4]] = [.yield 1, .stop, .yield 2] := by decide

/-- C20 on an unmodified list: exactly the elements in order, then stop for ever. -/
theorem C20_forward_unmodified (l : List α) (m : Nat) :
    (ArrIter.create l false).run (List.replicate (l.length + m) l) =
      l.map .yield ++ List.replicate m .stop := by
  have main : ∀ (k i : Nat), i + k = l.length →
      ArrIter.run ⟨some i, false⟩ (List.replicate (k + m) l) = (l.drop i).map .yield ++ List.replicate m .stop := by
    intro k
    induction k with
    | zero =>
      intro i hi
      have hd : l.drop i = [] := List.drop_eq_nil_of_le (by omega)
      rw [hd, Nat.zero_add]
      clear hd
      induction m with
      | zero => rfl
      | succ m ih =>
        have : ArrIter.next ⟨some i, false⟩ l = (⟨some i, false⟩, .stop) := by
          cases l <;> simp_all [ArrIter.next]
        simp only [List.replicate_succ, ArrIter.run, this, ih]
        rfl
    | succ k ih =>
      intro i hi
      have hlt : i < l.length := by omega
      have hne : l.isEmpty = false := by cases l <;> simp_all
      have : ArrIter.next ⟨some i, false⟩ l = (⟨some (i + 1), false⟩, .yield l[i]) := by
        simp [ArrIter.next, ArrIter.read, hne, hlt]
      rw [show k + 1 + m = (k + m) + 1 by omega, List.replicate_succ]
      simp only [ArrIter.run, this, ih (i + 1) (by omega)]
      rw [List.drop_eq_getElem_cons hlt]; rfl
  exact main l.length 0 (by omega)

/-- C20 fails after exhaustion: whenever a forward iterator has stopped at position `i` and the list then grows
beyond `i`, the next call yields again, where Python's iterator stays exhausted. -/
theorem C20_exhausted_negation (l l' : List α) (h : l.length < l'.length) :
    ∃ x, (ArrIter.create l false).run (List.replicate (l.length + 1) l ++ [l']) =
        l.map .yield ++ [.stop, .yield x] ∧
      Spec.iterRun 0 (List.replicate (l.length + 1) l ++ [l']) = l.map .yield ++ [.stop, .stop] := by
  refine ⟨l'[l.length], ?_, ?_⟩
  · have main : ∀ (k i : Nat), i + k = l.length →
        ArrIter.run ⟨some i, false⟩ (List.replicate (k + 1) l ++ [l']) =
          (l.drop i).map .yield ++ [.stop, .yield l'[l.length]] := by
      intro k
      induction k with
      | zero =>
        intro i hi
        have hd : l.drop i = [] := List.drop_eq_nil_of_le (by omega)
        have h1 : ArrIter.next ⟨some i, false⟩ l = (⟨some i, false⟩, .stop) := by
          cases l <;> simp_all [ArrIter.next]
        have hne : l'.isEmpty = false := by cases l' <;> simp_all
        have hil : i = l.length := by omega
        subst hil
        have h2 : ArrIter.next ⟨some l.length, false⟩ l' = (⟨some (l.length + 1), false⟩, .yield l'[l.length]) := by
          simp [ArrIter.next, ArrIter.read, hne, h]
        rw [hd]
        simp [ArrIter.run, h1, h2]
      | succ k ih =>
        intro i hi
        have hlt : i < l.length := by omega
        have hne : l.isEmpty = false := by cases l <;> simp_all
        have : ArrIter.next ⟨some i, false⟩ l = (⟨some (i + 1), false⟩, .yield l[i]) := by
          simp [ArrIter.next, ArrIter.read, hne, hlt]
        rw [List.replicate_succ, List.cons_append]
        simp only [ArrIter.run, this, ih (i + 1) (by omega)]
        rw [List.drop_eq_getElem_cons hlt]; rfl
    exact main l.length 0 (by omega)
  · have main : ∀ (k i : Nat), i + k = l.length →
        Spec.iterRun i (List.replicate (k + 1) l ++ [l']) = (l.drop i).map .yield ++ [.stop, .stop] := by
      intro k
      induction k with
      | zero =>
        intro i hi
        have hd : l.drop i = [] := List.drop_eq_nil_of_le (by omega)
        have : l[i]? = none := List.getElem?_eq_none (by omega)
        rw [hd]
        simp [Spec.iterRun, this]
      | succ k ih =>
        intro i hi
        have hlt : i < l.length := by omega
        rw [List.replicate_succ, List.cons_append, Spec.iterRun, List.getElem?_eq_getElem hlt]
        simp only [ih (i + 1) (by omega)]
        rw [List.drop_eq_getElem_cons hlt]; rfl
    exact main l.length 0 (by omega)

example : ([1] : List Nat).length < [1, 2].length := by decide

/-! ## C21: reverse -/

/-- C21 on an unmodified list: the elements last to first, then stop for ever. -/
theorem C21_reverse_unmodified (l : List α) (m : Nat) :
    (ArrIter.create l true).run (List.replicate (l.length + m) l) =
      l.reverse.map .yield ++ List.replicate m .stop := by
  have tail : ∀ (it : ArrIter) (m : Nat), ArrIter.next it l = (it, .stop) →
      ArrIter.run it (List.replicate m l) = List.replicate m .stop := by
    intro it m h
    induction m with
    | zero => rfl
    | succ m ih => simp only [List.replicate_succ, ArrIter.run, h, ih]
  have main : ∀ (i : Nat), i < l.length →
      ArrIter.run ⟨some i, true⟩ (List.replicate (i + 1 + m) l) =
        (l.take (i + 1)).reverse.map .yield ++ List.replicate m .stop := by
    intro i
    induction i with
    | zero =>
      intro hi
      have hne : l.isEmpty = false := by cases l <;> simp_all
      have h1 : ArrIter.next ⟨some 0, true⟩ l = (⟨none, true⟩, .yield l[0]) := by
        simp [ArrIter.next, ArrIter.read, hne, hi]
      have h2 := tail ⟨none, true⟩ m (by simp [ArrIter.next, hne])
      rw [show 0 + 1 + m = m + 1 by omega, List.replicate_succ]
      simp only [ArrIter.run, h1, h2]
      cases l with
      | nil => simp at hi
      | cons x xs => rfl
    | succ i ih =>
      intro hi
      have hne : l.isEmpty = false := by cases l <;> simp_all
      have h1 : ArrIter.next ⟨some (i + 1), true⟩ l = (⟨some i, true⟩, .yield l[i + 1]) := by
        simp [ArrIter.next, ArrIter.read, hne, hi]
      rw [show i + 1 + 1 + m = (i + 1 + m) + 1 by omega, List.replicate_succ]
      simp only [ArrIter.run, h1, ih (by omega)]
      rw [List.take_succ_eq_append_getElem hi, List.reverse_append]
      rfl
  by_cases hl : l = []
  · subst hl
    simpa using tail (ArrIter.create [] true) m (by simp [ArrIter.next])
  · have hpos : 0 < l.length := List.length_pos_iff.2 hl
    have hne : l.isEmpty = false := by cases l <;> simp_all
    have := main (l.length - 1) (by omega)
    rw [show l.length - 1 + 1 = l.length by omega, List.take_length] at this
    simpa [ArrIter.create, hne] using this

/-- C21 under modification: if no call finds the list shorter than it was when the iterator was created, every
answer is that of CPython's reverse iterator (so no invalid memory is touched). Missing: shrinking lists
(`C21_shrink_negation`), and iterators created on an empty list that grows (`C21_empty_negation`). -/
theorem C21_reverse_partial (l0 : List α) (ls : List (List α)) (hne : l0 ≠ [])
    (h : ∀ l ∈ ls, l0.length ≤ l.length) : (ArrIter.create l0 true).run ls = Spec.revRun l0.length ls := by
  have stopped : ∀ ls : List (List α), (∀ l ∈ ls, l ≠ []) →
      ArrIter.run ⟨none, true⟩ ls = ls.map fun _ => .stop := by
    intro ls hls
    induction ls with
    | nil => rfl
    | cons l ls ih =>
      have : l.isEmpty = false := by have := hls l (by simp); cases l <;> simp_all
      simp [ArrIter.run, ArrIter.next, this, ih fun x hx => hls x (by simp [hx])]
  have main : ∀ (ls : List (List α)) (i : Nat), (∀ l ∈ ls, i < l.length) →
      ArrIter.run ⟨some i, true⟩ ls = Spec.revRun (i + 1) ls := by
    intro ls
    induction ls with
    | nil => intro i _; rfl
    | cons l ls ih =>
      intro i hi
      have hl : i < l.length := hi l (by simp)
      have hemp : l.isEmpty = false := by cases l <;> simp_all
      cases i with
      | zero =>
        have h1 : ArrIter.next ⟨some 0, true⟩ l = (⟨none, true⟩, .yield l[0]) := by
          simp [ArrIter.next, ArrIter.read, hemp, hl]
        have hs := stopped ls fun x hx => by
          have := hi x (by simp [hx]); intro hx; subst hx; simp at this
        simp only [ArrIter.run, h1, Spec.revRun, List.getElem?_eq_getElem hl, hs]
        cases ls <;> rfl
      | succ i =>
        have h1 : ArrIter.next ⟨some (i + 1), true⟩ l = (⟨some i, true⟩, .yield l[i + 1]) := by
          simp [ArrIter.next, ArrIter.read, hemp, hl]
        simp only [ArrIter.run, h1, Spec.revRun, List.getElem?_eq_getElem hl]
        rw [ih i fun x hx => by have := hi x (by simp [hx]); omega]
  have hpos : 0 < l0.length := List.length_pos_iff.2 hne
  have hemp : l0.isEmpty = false := by cases l0 <;> simp_all
  have := main ls (l0.length - 1) fun l hl => by have := h l hl; omega
  rw [show l0.length - 1 + 1 = l0.length by omega] at this
  simpa [ArrIter.create, hemp] using this

example : ∀ l ∈ [[5, 6], [1, 2, 3], [0, 0]], ([7, 8] : List Nat).length ≤ l.length := by decide

/-- C21 fails: if the list has shrunk to at most the iterator's position (but is not empty), next() reads outside
the list. For every list of length at least two it suffices to remove the last element before the first call. -/
theorem C21_shrink_negation (l l' : List α) (h0 : l' ≠ []) (h : l'.length < l.length) :
    (ArrIter.create l true).run [l'] = [.ub .outOfBounds] := by
  have hpos : 0 < l'.length := List.length_pos_iff.2 h0
  have hemp : l.isEmpty = false := by cases l <;> simp_all
  have hemp' : l'.isEmpty = false := by cases l' <;> simp_all
  obtain ⟨k, hk⟩ : ∃ k, l.length - 1 = k + 1 := ⟨l.length - 2, by omega⟩
  have : l'[k + 1]? = none := List.getElem?_eq_none (by omega)
  simp [ArrIter.create, ArrIter.run, ArrIter.next, hemp, hemp', hk, ArrIter.read, this]

/-- … and through the API: `r = reversed(l); l.pop(); next(r)` for any IntArrayList / BigIntArrayList of two or
more elements. -/
theorem C21_pop_negation (cfg : Cfg) (K : Kind) (l : List Int) (h : 2 ≤ l.length) :
    ∃ l' r, ArrayList.step cfg K l (.pop none) = .ok l' r ∧ (ArrIter.create l true).run [l'] = [.ub .outOfBounds] := by
  have hne : l ≠ [] := by intro hx; subst hx; simp at h
  refine ⟨l.dropLast, .int (box K cfg.py (l.getLast hne)), ?_, C21_shrink_negation l l.dropLast ?_ (by simp; omega)⟩
  · simp only [ArrayList.step, ArrayList.pop, List.getLast?_eq_some_getLast hne]
  · intro hx
    have := congrArg List.length hx
    simp at this; omega

example : 2 ≤ ([4, 5] : List Int).length := by decide

/-- C21 deviates from Python for an iterator created on an empty list: it yields the first element added later. -/
theorem C21_empty_negation (x : α) (xs : List α) :
    (ArrIter.create ([] : List α) true).run [x :: xs] = [.yield x] ∧ Spec.revRun 0 [x :: xs] = [.stop] := by
  simp [ArrIter.create, ArrIter.run, ArrIter.next, ArrIter.read, Spec.revRun]

end Verif.Props
