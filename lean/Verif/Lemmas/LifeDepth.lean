import Verif.Lemmas.LifeNested

/-!
# The stack a destruction needs
-/

namespace Verif.Life

open Verif.Spec.Life

/-- The ranks increase from element to list. -/
def Ranked (rank : Nat → Nat) (h : Heap) : Prop := ∀ o c, h.cells o = some c → ∀ y ∈ c.refs, rank y < rank o

/-- No stack overflow, and `P` afterwards. -/
def Deep (P : Heap → Prop) (r : Except UB Heap) : Prop := r ≠ .error .stackOverflow ∧ ∀ h, r = .ok h → P h

theorem deep_foldlM {P : Heap → Prop} (f : Heap → Nat → Except UB Heap) : ∀ (l : List Nat) (h : Heap),
    (∀ h, P h → ∀ x ∈ l, Deep P (f h x)) → P h → Deep P (l.foldlM f h)
  | [], h, _, hp => ⟨nofun, fun h' e => by cases e; exact hp⟩
  | x :: l, h, hf, hp => by
    have h1 := hf h hp x (by simp)
    rw [List.foldlM_cons]
    match e : f h x with
    | .error u => exact ⟨fun e' => h1.1 (e.trans e'), nofun⟩
    | .ok h' => exact deep_foldlM f l h' (fun h hp x hx => hf h hp x (by simp [hx])) (h1.2 h' e)

theorem Ranked.put {rank : Nat → Nat} {h : Heap} (hr : Ranked rank h) {x b : Nat} {c : Cell} (hc : ∀ y ∈ c.refs, rank y < rank x) :
    Ranked rank ({ h with blocks := b }.put x c) := by
  intro o d hd
  simp only [Heap.put, upd] at hd
  split at hd
  · next e => cases hd; subst e; exact hc
  · exact hr o d hd

theorem Ranked.drop {rank : Nat → Nat} {h : Heap} (hr : Ranked rank h) {x b : Nat} :
    Ranked rank { h with cells := upd h.cells x none, blocks := b } := by
  intro o d hd
  simp only [upd] at hd
  split at hd
  · cases hd
  · exact hr o d hd

theorem deep_incref {rank : Nat → Nat} {h : Heap} (hr : Ranked rank h) (x : Nat) : Deep (Ranked rank) (incref h x) := by
  unfold incref
  match hc : h.cells x with
  | none => exact ⟨nofun, nofun⟩
  | some c =>
    refine ⟨nofun, fun h' e => ?_⟩
    cases e
    exact hr.put (b := h.blocks) (hr x c hc)

theorem deep_increfAll {rank : Nat → Nat} {h : Heap} (hr : Ranked rank h) (items : List Elem) :
    Deep (Ranked rank) (increfAll h items) :=
  deep_foldlM _ _ _ (fun _ hp x _ => deep_incref hp x) hr

/-- A frame for every level is enough. -/
theorem deep_decref {rank : Nat → Nat} : ∀ (D : Nat) {h : Heap}, Ranked rank h → ∀ x, rank x < D → Deep (Ranked rank) (decref D h x)
  | 0, _, _, _, hx => absurd hx (Nat.not_lt_zero _)
  | D + 1, h, hr, x, hx => by
    unfold decref
    match hc : h.cells x with
    | none => exact ⟨nofun, nofun⟩
    | some c =>
      have hy := hr x c hc
      simp only
      split
      · refine ⟨nofun, fun h' e => ?_⟩
        cases e
        exact hr.put (b := h.blocks) hy
      · split
        · exact ⟨nofun, nofun⟩
        · exact deep_foldlM _ _ _ (fun _ hp y hm => deep_decref D hp y (by have := hy y hm; omega)) hr.drop

theorem deep_finish {P : Heap → Prop} {names : List Nat} {a : Ans} {r : Except UB Heap} (h : Deep P r) :
    finish names a r ≠ .ub .stackOverflow := by
  match r, h with
  | .ok h, _ => exact nofun
  | .error u, h => intro e; cases e; exact h.1 rfl

theorem deep_onList {w : World} {o : Nat} {f : Cell → Out World Ans}
    (h : ∀ c, w.heap.cells o = some c → f c ≠ .ub .stackOverflow) : onList w o f ≠ .ub .stackOverflow := by
  unfold onList
  split
  · split
    · exact nofun
    · next c hc =>
      split
      · exact nofun
      · exact h c hc
  · exact nofun

theorem step_below {D : Nat} {w : World} {L : List Nat} {B : Nat} (iv : Inv w.heap (w.names ++ L) B) (ev : Ev) (hb : Below D w) :
    step D w ev ≠ .ub .stackOverflow := by
  obtain ⟨rank, h1, h2⟩ := hb
  have hr : Ranked rank w.heap := by
    intro o c hc y hy
    obtain ⟨e, he, hy⟩ := List.mem_filterMap.1 hy
    cases e with
    | int v => cases hy
    | obj z =>
      cases hy
      exact h1 o _ (by rw [elems_eq, itemsAt_some hc]; exact he)
  have incs : ∀ (h : Heap) (l : List Elem), Deep (fun _ => True) (increfAll h l) := by
    intro h l
    refine deep_foldlM _ _ _ (fun h _ x _ => ?_) trivial
    unfold incref
    split <;> exact ⟨nofun, fun _ _ => trivial⟩
  unfold step
  cases ev with
  | new k => exact nofun
  | init o items fails =>
    refine deep_onList fun c hc => ?_
    split
    · have := incs ({ w.heap with blocks := w.heap.blocks + c.cls.blocksFor items.length }.put o
        { c with body := .made items, blocks := c.cls.blocksFor items.length }) items
      unfold initBody
      split
      · next u e => intro e'; cases e'; exact this.1 e
      · split <;> exact nofun
    · exact nofun
  | initFrom o p =>
    refine deep_onList fun c hc => deep_onList fun d hd => ?_
    (repeat' split) <;> exact nofun
  | create k items fails =>
    simp only
    split
    · next hm =>
      have hlive := may_lives iv hm.2
      have hne : ∀ y ∈ items.filterMap Elem.ref?, y ≠ w.heap.next := by
        rintro y hy rfl
        have := hlive _ hy
        rw [iv.bound _ (Nat.le_refl _)] at this
        cases this
      have hold : ∀ o c, w.heap.cells o = some c → o ≠ w.heap.next := by
        rintro o c hc rfl
        rw [iv.bound _ (Nat.le_refl _)] at hc
        cases hc
      have hR : Ranked (upd rank w.heap.next (D - 1))
          ({ (alloc w k .zero 0).heap with blocks := (alloc w k .zero 0).heap.blocks + k.blocksFor items.length }.put w.heap.next
            ⟨1, k, .made items, k.blocksFor items.length⟩) := by
        intro o c hc y hy
        simp only [Heap.put, alloc, upd] at hc
        split at hc
        · next e =>
          cases hc
          subst e
          have h3 := hne y hy
          rw [upd_self, upd_ne _ _ h3]
          have := h2 y
          omega
        · next e =>
          have hyl := iv.held hc hy
          obtain ⟨d, hd⟩ := hyl
          rw [upd_ne _ _ e, upd_ne _ _ (hold y d hd)]
          exact hr o c hc y hy
      have hi : Deep (Ranked (upd rank w.heap.next (D - 1)))
          (initBody (alloc w k .zero 0).heap w.heap.next ⟨1, k, .zero, 0⟩ items) := deep_increfAll hR items
      have hD : 1 < D := by have := h2 0; omega
      split
      · next u e => intro e'; cases e'; exact hi.1 e
      · next h e =>
        split
        · have := deep_decref D (hi.2 h e) w.heap.next (by rw [upd_self]; omega)
          split
          · next u e2 => intro e'; cases e'; exact this.1 e2
          · exact nofun
        · exact nofun
    · exact nofun
  | append o e =>
    refine deep_onList fun c hc => ?_
    split
    · split
      · exact nofun
      · exact deep_finish (incs _ _)
    · exact nofun
  | pop o =>
    refine deep_onList fun c hc => ?_
    split
    · exact nofun
    · split <;> exact nofun
  | get o i =>
    refine deep_onList fun c hc => ?_
    split
    · exact nofun
    · exact deep_finish (incs _ _)
  | len o => exact deep_onList fun c hc => nofun
  | clear o =>
    refine deep_onList fun c hc => ?_
    split
    · exact nofun
    · refine deep_finish (P := Ranked rank) (deep_foldlM _ _ _ (fun _ hp y _ => deep_decref D hp y (by have := h2 y; omega)) ?_)
      exact hr.put (by simp [Cell.refs, Body.items])
  | copy o =>
    refine deep_onList fun c hc => ?_
    split
    · exact nofun
    · exact deep_finish (incs _ _)
  | dup x =>
    simp only
    split
    · exact deep_finish (deep_incref hr x)
    · exact nofun
  | drop x =>
    simp only
    split
    · exact deep_finish (deep_decref D hr x (by have := h2 x; omega))
    · exact nofun

theorem chain_drop : ∀ (D n : Nat) (h : Heap), Chain n h → n < D → ∃ h', decref D h n = .ok h' ∧
    (∀ i, i ≤ n → h'.cells i = none) ∧ ∀ i, n < i → h'.cells i = h.cells i
  | 0, _, _, _, hD => absurd hD (Nat.not_lt_zero _)
  | D + 1, 0, h, hc, _ => by
    obtain ⟨b, hb⟩ := hc 0 (Nat.le_refl _)
    refine ⟨{ h with cells := upd h.cells 0 none, blocks := h.blocks - b }, ?_, fun i hi => ?_, fun i hi => ?_⟩
    · simp [decref, hb, Cell.refs, Body.items, Class.linked, pure, Except.pure]
    · obtain rfl : i = 0 := by omega
      exact upd_self h.cells 0 none
    · exact upd_ne _ _ (by omega)
  | D + 1, n + 1, h, hc, hD => by
    obtain ⟨b, hb⟩ := hc (n + 1) (Nat.le_refl _)
    rw [if_neg (by omega)] at hb
    obtain ⟨h', e, h1, h2⟩ := chain_drop D n { h with cells := upd h.cells (n + 1) none, blocks := h.blocks - b } (by
      intro i hi
      obtain ⟨b', hb'⟩ := hc i (by omega)
      exact ⟨b', by dsimp only; rw [upd_ne _ _ (by omega)]; exact hb'⟩) (by omega)
    refine ⟨h', ?_, fun i hi => ?_, fun i hi => ?_⟩
    · simp only [decref, hb, Cell.refs, Body.items, List.filterMap_cons, List.filterMap_nil, Elem.ref?, Class.linked,
        Nat.lt_irrefl, if_false, Bool.false_and, Bool.false_eq_true, List.foldlM_cons, Nat.add_sub_cancel]
      rw [e]
      rfl
    · by_cases hin : i = n + 1
      · subst hin
        rw [h2 _ (by omega)]
        exact upd_self _ _ _
      · exact h1 i (by omega)
    · rw [h2 i (by omega)]
      exact upd_ne _ _ (by omega)

theorem run_below {D : Nat} : ∀ (evs : List Ev) (w : World) (L : List Nat) (B : Nat), Inv w.heap (w.names ++ L) B →
    Never sharing D w evs → Shallow D w evs → run D w evs ≠ .error .stackOverflow
  | [], _, _, _, _, _, _ => nofun
  | ev :: evs, w, L, B, iv, hn, hd => by
    have hf := step_fine (D := D) iv ev hn.1
    have hs := step_below iv ev hd.1
    have hgo : ∀ w', Kept w ev L B w' → (step D w ev).state? = some w' → run D w' evs ≠ .error .stackOverflow := by
      intro w' k hw'
      obtain ⟨L1, B1, i1, _⟩ := k.inv
      exact run_below evs w' L1 B1 i1 (hn.2 w' hw') (hd.2 w' hw')
    simp only [run]
    revert hf hgo hs
    generalize step D w ev = r
    intro hf hs hgo
    match r with
    | .ok w' a => exact hgo w' hf.1 rfl
    | .exc w' e => exact hgo w' hf.2.1 rfl
    | .pending w' a e => exact hf.elim
    | .ub u => intro e; cases e; exact hs rfl

end Verif.Life
