import Verif.Spec.ForeignExact
import Verif.Lemmas.Foreign

/-! # When the walks over a sequence of a user class leave the list (for C55) -/

namespace Verif.Foreign

open Verif.ArrayList

theorem conv_taken (K : Kind) (x : Live) (l : List Int) :
    (conv (toElem K) x l).1 = (x.run l).1 ∧
    (∀ v, taken K.bits (x.run l).2 = some v → (conv (toElem K) x l).2 = (v, none)) ∧
    (taken K.bits (x.run l).2 = none → ∃ e, (conv (toElem K) x l).2 = (-1, some e)) := by
  unfold conv
  rcases hx : x.run l with ⟨l', e | v⟩
  · exact ⟨rfl, by simp [taken], fun _ => ⟨e, rfl⟩⟩
  · refine ⟨rfl, ?_, ?_⟩
    · intro w hw
      simp only [taken] at hw
      split_ifs at hw with hf
      have hf' : FitsS 64 v := hf
      cases hw
      simp only [toElem, asLong, if_pos hf']
      rfl
    · intro hw
      simp only [taken] at hw
      split_ifs at hw with hf
      have hf' : ¬ FitsS 64 v := hf
      refine ⟨.overflowError, ?_⟩
      simp only [toElem, asLong, if_neg hf']
      cases K <;> rfl

theorem Through.le {go i l f j l' f'} (h : Through go i l f j l' f') : i ≤ j := by
  induction h with
  | here => exact Nat.le_refl _
  | next _ _ ih => omega

/-- A walk is still where it is or has gone on. -/
theorem through_item {go : Nat → List Int → List Int → Except Exc Int → List Int → Prop} {i : Nat} {l : List Int}
    {g : List Int → List Int} {x : Live} {k : List Int → Feed} {j : Nat} {l' : List Int} {f' : Feed} :
    Through go i l (.item g x k) j l' f' ↔ (j = i ∧ l' = l ∧ f' = .item g x k) ∨
      ∃ l3, go i (g l) (x.run (g l)).1 (x.run (g l)).2 l3 ∧ Through go (i + 1) l3 (k l) j l' f' := by
  constructor
  · intro h
    cases h with
    | here => exact .inl ⟨rfl, rfl, rfl⟩
    | next a b => exact .inr ⟨_, a, b⟩
  · rintro (⟨rfl, rfl, rfl⟩ | ⟨l3, a, b⟩)
    · exact .here
    · exact .next a b

theorem through_done {go : Nat → List Int → List Int → Except Exc Int → List Int → Prop} {i : Nat} {l : List Int}
    {g : List Int → List Int} {j : Nat} {l' : List Int} {f' : Feed} :
    Through go i l (.done g) j l' f' ↔ j = i ∧ l' = l ∧ f' = .done g := by
  constructor
  · intro h
    cases h
    exact ⟨rfl, rfl, rfl⟩
  · rintro ⟨rfl, rfl, rfl⟩
    exact .here

theorem through_fail {go : Nat → List Int → List Int → Except Exc Int → List Int → Prop} {i : Nat} {l : List Int}
    {g : List Int → List Int} {e : Exc} {j : Nat} {l' : List Int} {f' : Feed} :
    Through go i l (.fail g e) j l' f' ↔ j = i ∧ l' = l ∧ f' = .fail g e := by
  constructor
  · intro h
    cases h
    exact ⟨rfl, rfl, rfl⟩
  · rintro ⟨rfl, rfl, rfl⟩
    exact .here

/-! ## Comparisons -/

theorem eqLoop_ub {K : Kind} {u : UB} : ∀ {n i : Nat} {l : List Int} {f : Feed}, eqLoop K n i l f = .ub u ↔ u = .outOfBounds ∧
    ∃ j l' g x k, j < i + n ∧ Through (goEqual K.bits) i l f j l' (.item g x k) ∧ (g l').length ≤ j := by
  intro n
  induction n with
  | zero =>
    intro i l f
    simp only [eqLoop, reduceCtorEq, false_iff, not_and, not_exists]
    rintro - j l' g x k hj ht
    have := ht.le
    omega
  | succ n ih =>
    intro i l f
    cases f with
    | done g => simp [eqLoop, through_done]
    | fail g e => simp [eqLoop, through_fail]
    | item g x k =>
      unfold eqLoop
      obtain ⟨c1, c2, c3⟩ := conv_taken K x (g l)
      rcases hc : conv (toElem K) x (g l) with ⟨l2, w, e⟩
      rw [hc] at c1 c2 c3
      dsimp only at c1 c2 c3
      cases ha : (g l)[i]? with
      | none =>
        have hlen : (g l).length ≤ i := by simpa using ha
        dsimp only
        constructor
        · intro h
          cases h
          exact ⟨rfl, i, l, g, x, k, by omega, .here, hlen⟩
        · rintro ⟨rfl, -⟩
          rfl
      | some a =>
        have hlen : i < (g l).length := by
          rcases Nat.lt_or_ge i (g l).length with h | h
          · exact h
          · rw [List.getElem?_eq_none h] at ha
            cases ha
        dsimp only
        have stop : (∀ l3, ¬ goEqual K.bits i (g l) (x.run (g l)).1 (x.run (g l)).2 l3) → ¬ (u = .outOfBounds ∧
            ∃ j l' g' x' k', j < i + (n + 1) ∧ Through (goEqual K.bits) i l (.item g x k) j l' (.item g' x' k') ∧
              (g' l').length ≤ j) := by
          rintro hs ⟨-, j, l', g', x', k', -, ht, hj⟩
          rcases through_item.mp ht with ⟨rfl, rfl, e⟩ | ⟨l3, h3, -⟩
          · cases e
            omega
          · exact hs l3 h3
        cases ht : taken K.bits (x.run (g l)).2 with
        | none =>
          obtain ⟨e', he⟩ := c3 ht
          cases he
          exact ⟨fun h => (nomatch h), fun h => absurd h (stop (by rintro l3 ⟨-, b, -, hb⟩; rw [ht] at hb; cases hb))⟩
        | some v =>
          have he := c2 v ht
          obtain ⟨hwv, rfl⟩ := Prod.mk.inj he
          subst hwv
          dsimp only
          by_cases hav : a ≠ w
          · rw [if_pos hav]
            refine ⟨fun h => (nomatch h), fun h => absurd h (stop ?_)⟩
            rintro l3 ⟨-, b, hb1, hb2⟩
            rw [ha] at hb1
            rw [ht] at hb2
            cases hb1
            cases hb2
            exact hav rfl
          · rw [if_neg hav, ih]
            have hav' : a = w := by simpa using hav
            constructor
            · rintro ⟨hu, j, l', g', x', k', hj, hth, hle⟩
              refine ⟨hu, j, l', g', x', k', by omega, .next ⟨c1, a, ha, by rw [ht, hav']⟩ hth, hle⟩
            · rintro ⟨hu, j, l', g', x', k', hj, hth, hle⟩
              rcases through_item.mp hth with ⟨rfl, rfl, e⟩ | ⟨l3, ⟨h3, -⟩, h4⟩
              · cases e
                omega
              · rw [h3, ← c1] at h4
                exact ⟨hu, j, l', g', x', k', by omega, h4, hle⟩

theorem eqLoop_exc {K : Kind} : ∀ {n i : Nat} {l : List Int} {f : Feed}, (∃ s e, eqLoop K n i l f = .exc s e) ↔
    ∃ j l' f', j < i + n ∧ Through (goEqual K.bits) i l f j l' f' ∧ ((∃ g, f' = .done g) ∨ ∃ g e, f' = .fail g e) := by
  intro n
  induction n with
  | zero =>
    intro i l f
    simp only [eqLoop, reduceCtorEq, exists_false, false_iff, not_and, not_exists]
    rintro j l' f' hj ht
    have := ht.le
    omega
  | succ n ih =>
    intro i l f
    cases f with
    | done g =>
      refine ⟨fun _ => ⟨i, l, _, by omega, .here, .inl ⟨g, rfl⟩⟩, fun _ => ⟨g l, .indexError, by simp only [eqLoop]⟩⟩
    | fail g e =>
      refine ⟨fun _ => ⟨i, l, _, by omega, .here, .inr ⟨g, e, rfl⟩⟩, fun _ => ⟨g l, e, by simp only [eqLoop]⟩⟩
    | item g x k =>
      unfold eqLoop
      obtain ⟨c1, c2, c3⟩ := conv_taken K x (g l)
      rcases hc : conv (toElem K) x (g l) with ⟨l2, w, e⟩
      rw [hc] at c1 c2 c3
      dsimp only at c1 c2 c3
      have stop : (∀ l3, ¬ goEqual K.bits i (g l) (x.run (g l)).1 (x.run (g l)).2 l3) → ¬ (∃ j l' f', j < i + (n + 1) ∧
          Through (goEqual K.bits) i l (.item g x k) j l' f' ∧ ((∃ g, f' = .done g) ∨ ∃ g e, f' = .fail g e)) := by
        rintro hs ⟨j, l', f', -, ht, hj⟩
        rcases through_item.mp ht with ⟨rfl, rfl, rfl⟩ | ⟨l3, h3, -⟩
        · rcases hj with ⟨_, h⟩ | ⟨_, _, h⟩ <;> cases h
        · exact hs l3 h3
      cases ha : (g l)[i]? with
      | none =>
        dsimp only
        refine ⟨fun ⟨_, _, h⟩ => (nomatch h), fun h => absurd h (stop ?_)⟩
        rintro l3 ⟨-, b, hb, -⟩
        rw [ha] at hb
        cases hb
      | some a =>
        dsimp only
        cases ht : taken K.bits (x.run (g l)).2 with
        | none =>
          obtain ⟨e', he⟩ := c3 ht
          cases he
          refine ⟨fun ⟨_, _, h⟩ => (nomatch h), fun h => absurd h (stop ?_)⟩
          rintro l3 ⟨-, b, -, hb⟩
          rw [ht] at hb
          cases hb
        | some v =>
          have he := c2 v ht
          obtain ⟨hwv, rfl⟩ := Prod.mk.inj he
          subst hwv
          dsimp only
          by_cases hav : a ≠ w
          · rw [if_pos hav]
            refine ⟨fun ⟨_, _, h⟩ => (nomatch h), fun h => absurd h (stop ?_)⟩
            rintro l3 ⟨-, b, hb1, hb2⟩
            rw [ha] at hb1
            rw [ht] at hb2
            cases hb1
            cases hb2
            exact hav rfl
          · rw [if_neg hav, ih]
            have hav' : a = w := by simpa using hav
            constructor
            · rintro ⟨j, l', f', hj, hth, hle⟩
              exact ⟨j, l', f', by omega, .next ⟨c1, a, ha, by rw [ht, hav']⟩ hth, hle⟩
            · rintro ⟨j, l', f', hj, hth, hle⟩
              rcases through_item.mp hth with ⟨rfl, rfl, rfl⟩ | ⟨l3, ⟨h3, -⟩, h4⟩
              · rcases hle with ⟨_, h⟩ | ⟨_, _, h⟩ <;> cases h
              · rw [h3, ← c1] at h4
                exact ⟨j, l', f', by omega, h4, hle⟩

theorem boolOut_ub {l : List Int} {b : Bool} {p : Option Exc} {u : UB} : boolOut l b p ≠ .ub u := by
  cases p <;> simp [boolOut]

theorem ordLoop_ub {K : Kind} {op : CmpOp} {m : Int} {u : UB} : ∀ {n i : Nat} {l : List Int} {p : Option Exc} {f : Feed},
    ordLoop K op m n i l p f = .ub u ↔ u = .outOfBounds ∧
    ∃ j l' g x k, j < i + n ∧ Through (goOrder K.bits) i l f j l' (.item g x k) ∧ (g l').length ≤ j := by
  intro n
  induction n with
  | zero =>
    intro i l p f
    unfold ordLoop
    refine ⟨fun h => absurd h boolOut_ub, ?_⟩
    rintro ⟨-, j, l', g, x, k, hj, ht, -⟩
    have := ht.le
    omega
  | succ n ih =>
    intro i l p f
    cases f with
    | done g => simp [ordLoop, through_done]
    | fail g e => simp [ordLoop, through_fail]
    | item g x k =>
      unfold ordLoop
      obtain ⟨c1, c2, c3⟩ := conv_taken K x (g l)
      rcases hc : conv (toElem K) x (g l) with ⟨l2, w, e⟩
      rw [hc] at c1 c2 c3
      dsimp only at c1 c2 c3
      have hw : (taken K.bits (x.run (g l)).2).getD (-1) = w := by
        cases ht : taken K.bits (x.run (g l)).2 with
        | none =>
          obtain ⟨e', he⟩ := c3 ht
          cases he
          rfl
        | some v =>
          have he := c2 v ht
          obtain ⟨hwv, rfl⟩ := Prod.mk.inj he
          subst hwv
          rfl
      cases ha : (g l)[i]? with
      | none =>
        have hlen : (g l).length ≤ i := by simpa using ha
        dsimp only
        constructor
        · intro h
          cases h
          exact ⟨rfl, i, l, g, x, k, by omega, .here, hlen⟩
        · rintro ⟨rfl, -⟩
          rfl
      | some a =>
        have hlen : i < (g l).length := by
          rcases Nat.lt_or_ge i (g l).length with h | h
          · exact h
          · rw [List.getElem?_eq_none h] at ha
            cases ha
        dsimp only
        by_cases haw : a ≠ w
        · rw [if_pos haw]
          refine ⟨fun h => absurd h boolOut_ub, ?_⟩
          rintro ⟨-, j, l', g', x', k', -, ht, hj⟩
          rcases through_item.mp ht with ⟨rfl, rfl, e⟩ | ⟨l3, ⟨-, b, hb1, hb2⟩, -⟩
          · cases e
            omega
          · rw [ha] at hb1
            cases hb1
            exact absurd (hb2.symm.trans hw) haw
        · rw [if_neg haw, ih]
          have haw' : a = w := by simpa using haw
          constructor
          · rintro ⟨hu, j, l', g', x', k', hj, hth, hle⟩
            exact ⟨hu, j, l', g', x', k', by omega, .next ⟨c1, a, ha, by rw [hw, haw']⟩ hth, hle⟩
          · rintro ⟨hu, j, l', g', x', k', hj, hth, hle⟩
            rcases through_item.mp hth with ⟨rfl, rfl, e⟩ | ⟨l3, ⟨h3, -⟩, h4⟩
            · cases e
              omega
            · rw [h3, ← c1] at h4
              exact ⟨hu, j, l', g', x', k', by omega, h4, hle⟩

/-! ## Slice assignment -/

theorem assignLoop_ub {K : Kind} {start : Nat} {u : UB} : ∀ {n i : Nat} {l : List Int} {f : Feed},
    assignLoop K start n i l f = .ub u ↔ u = .outOfBounds ∧ ∃ j l' g x k, j < i + n ∧
      Through (goStore K.bits start) i l f j l' (.item g x k) ∧ (x.run (g l')).1.length ≤ start + j := by
  intro n
  induction n with
  | zero =>
    intro i l f
    unfold assignLoop
    refine ⟨fun h => (nomatch h), ?_⟩
    rintro ⟨-, j, l', g, x, k, hj, ht, -⟩
    have := ht.le
    omega
  | succ n ih =>
    intro i l f
    cases f with
    | done g => simp [assignLoop, through_done]
    | fail g e => simp [assignLoop, through_fail]
    | item g x k =>
      unfold assignLoop
      obtain ⟨c1, c2, c3⟩ := conv_taken K x (g l)
      rcases hc : conv (toElem K) x (g l) with ⟨l2, w, e⟩
      rw [hc] at c1 c2 c3
      dsimp only at c1 c2 c3 ⊢
      by_cases hl : start + i < l2.length
      · rw [if_pos hl]
        cases ht : taken K.bits (x.run (g l)).2 with
        | none =>
          obtain ⟨e', he⟩ := c3 ht
          cases he
          refine ⟨fun h => (nomatch h), ?_⟩
          rintro ⟨-, j, l', g', x', k', -, hth, hj⟩
          rcases through_item.mp hth with ⟨rfl, rfl, e⟩ | ⟨l3, ⟨-, v, hv, -⟩, -⟩
          · cases e
            rw [← c1] at hj
            omega
          · rw [ht] at hv
            cases hv
        | some v =>
          have he := c2 v ht
          obtain ⟨hwv, rfl⟩ := Prod.mk.inj he
          subst hwv
          dsimp only
          rw [ih]
          constructor
          · rintro ⟨hu, j, l', g', x', k', hj, hth, hle⟩
            exact ⟨hu, j, l', g', x', k', by omega, .next ⟨by rw [← c1]; exact hl, w, ht, by rw [← c1]⟩ hth, hle⟩
          · rintro ⟨hu, j, l', g', x', k', hj, hth, hle⟩
            rcases through_item.mp hth with ⟨rfl, rfl, e⟩ | ⟨l3, ⟨-, v', hv, h3⟩, h4⟩
            · cases e
              rw [← c1] at hle
              omega
            · rw [ht] at hv
              cases hv
              rw [h3, ← c1] at h4
              exact ⟨hu, j, l', g', x', k', by omega, h4, hle⟩
      · rw [if_neg hl]
        constructor
        · intro h
          cases h
          exact ⟨rfl, i, l, g, x, k, by omega, .here, by rw [← c1]; omega⟩
        · rintro ⟨rfl, -⟩
          rfl

theorem assignLoop_ok {K : Kind} {start : Nat} : ∀ {n i : Nat} {l : List Int} {f : Feed} {l' : List Int} {f' : Feed},
    assignLoop K start n i l f = .ok (l', f') () ↔ Through (goStore K.bits start) i l f (i + n) l' f' := by
  intro n
  induction n with
  | zero =>
    intro i l f l' f'
    unfold assignLoop
    constructor
    · intro h
      cases h
      exact .here
    · intro h
      cases h with
      | here => rfl
      | next _ h =>
        have := h.le
        omega
  | succ n ih =>
    intro i l f l' f'
    cases f with
    | done g =>
      simp only [assignLoop, reduceCtorEq, through_done, false_iff]
      omega
    | fail g e =>
      simp only [assignLoop, reduceCtorEq, through_fail, false_iff]
      omega
    | item g x k =>
      unfold assignLoop
      obtain ⟨c1, c2, c3⟩ := conv_taken K x (g l)
      rcases hc : conv (toElem K) x (g l) with ⟨l2, w, e⟩
      rw [hc] at c1 c2 c3
      dsimp only at c1 c2 c3 ⊢
      rw [through_item]
      by_cases hl : start + i < l2.length
      · rw [if_pos hl]
        cases ht : taken K.bits (x.run (g l)).2 with
        | none =>
          obtain ⟨e', he⟩ := c3 ht
          cases he
          refine ⟨fun h => (nomatch h), ?_⟩
          rintro (⟨h, -⟩ | ⟨l3, ⟨-, v, hv, -⟩, -⟩)
          · omega
          · rw [ht] at hv
            cases hv
        | some v =>
          have he := c2 v ht
          obtain ⟨hwv, rfl⟩ := Prod.mk.inj he
          subst hwv
          dsimp only
          rw [ih, show i + 1 + n = i + (n + 1) by omega]
          constructor
          · intro h
            exact .inr ⟨_, ⟨by rw [← c1]; exact hl, w, ht, by rw [← c1]⟩, h⟩
          · rintro (⟨h, -⟩ | ⟨l3, ⟨-, v', hv, h3⟩, h4⟩)
            · omega
            · rw [ht] at hv
              cases hv
              rw [h3, ← c1] at h4
              exact h4
      · rw [if_neg hl]
        refine ⟨fun h => (nomatch h), ?_⟩
        rintro (⟨h, -⟩ | ⟨l3, ⟨h, -⟩, -⟩)
        · omega
        · rw [← c1] at h
          omega

theorem insertLoop_ub {early : Bool} {K : Kind} {start : Nat} {u : UB} : ∀ {n i : Nat} {l : List Int} {f : Feed},
    insertLoop early K start n i l f = .ub u ↔ u = .badIterator ∧ ∃ j l' g x k, j < i + n ∧
      Through (goInsert early K.bits start) i l f j l' (.item g x k) ∧ ¬ Room early (start + j) (g l') (x.run (g l')).1 := by
  intro n
  induction n with
  | zero =>
    intro i l f
    unfold insertLoop
    refine ⟨fun h => (nomatch h), ?_⟩
    rintro ⟨-, j, l', g, x, k, hj, ht, -⟩
    have := ht.le
    omega
  | succ n ih =>
    intro i l f
    cases f with
    | done g => simp [insertLoop, through_done]
    | fail g e => simp [insertLoop, through_fail]
    | item g x k =>
      unfold insertLoop
      obtain ⟨c1, c2, c3⟩ := conv_taken K x (g l)
      rcases hc : conv (toElem K) x (g l) with ⟨l2, w, e⟩
      rw [hc] at c1 c2 c3
      dsimp only at c1 c2 c3 ⊢
      by_cases hl : start + i ≤ l2.length ∧ (early = true → l2 = g l)
      · have hroom : Room early (start + i) (g l) (x.run (g l)).1 := by
          rw [← c1]
          exact hl
        rw [if_pos hl]
        cases ht : taken K.bits (x.run (g l)).2 with
        | none =>
          obtain ⟨e', he⟩ := c3 ht
          cases he
          refine ⟨fun h => (nomatch h), ?_⟩
          rintro ⟨-, j, l', g', x', k', -, hth, hj⟩
          rcases through_item.mp hth with ⟨rfl, rfl, e⟩ | ⟨l3, ⟨-, v, hv, -⟩, -⟩
          · cases e
            exact (hj hroom).elim
          · rw [ht] at hv
            cases hv
        | some v =>
          have he := c2 v ht
          obtain ⟨hwv, rfl⟩ := Prod.mk.inj he
          subst hwv
          dsimp only
          rw [ih]
          constructor
          · rintro ⟨hu, j, l', g', x', k', hj, hth, hle⟩
            exact ⟨hu, j, l', g', x', k', by omega, .next ⟨hroom, w, ht, by rw [← c1]⟩ hth, hle⟩
          · rintro ⟨hu, j, l', g', x', k', hj, hth, hle⟩
            rcases through_item.mp hth with ⟨rfl, rfl, e⟩ | ⟨l3, ⟨-, v', hv, h3⟩, h4⟩
            · cases e
              exact absurd hroom hle
            · rw [ht] at hv
              cases hv
              rw [h3, ← c1] at h4
              exact ⟨hu, j, l', g', x', k', by omega, h4, hle⟩
      · rw [if_neg hl]
        constructor
        · intro h
          cases h
          refine ⟨rfl, i, l, g, x, k, by omega, .here, ?_⟩
          rw [← c1]
          exact hl
        · rintro ⟨rfl, -⟩
          rfl

theorem assignLoop_not_pending {K : Kind} {start : Nat} {r : Unit} {e : Exc} : ∀ {n i : Nat} {l : List Int} {f : Feed}
    {s : List Int × Feed}, assignLoop K start n i l f ≠ .pending s r e := by
  intro n
  induction n with
  | zero =>
    intro i l f s
    unfold assignLoop
    simp
  | succ n ih =>
    intro i l f s
    cases f with
    | done g => simp [assignLoop]
    | fail g e => simp [assignLoop]
    | item g x k =>
      unfold assignLoop
      rcases conv (toElem K) x (g l) with ⟨l2, w, _ | e'⟩
      · dsimp only
        split_ifs
        · exact ih
        · simp
      · dsimp only
        split_ifs <;> simp

theorem forget_ub {o : Out (List Int × Feed) Unit} {u : UB} : forget o = .ub u ↔ o = .ub u := by
  rcases o with ⟨⟨l, f⟩, _⟩ | ⟨⟨l, f⟩, e⟩ | ⟨⟨l, f⟩, _, e⟩ | w <;> simp [forget]

end Verif.Foreign
