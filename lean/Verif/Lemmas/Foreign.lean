import Verif.Model.Foreign
import Verif.Spec.Foreign
import Mathlib.Tactic.SplitIfs

/-! # Lemmas on Python code inside a call -/

namespace Verif.Foreign

open Verif.ArrayList

theorem conv_grows {x : Live} (h : x.Grows) (c : Arg → CRes) (l : List Int) : l.length ≤ (conv c x l).1.length := by
  have this : _ := h l
  unfold conv
  dsimp only at this
  rcases hx : x.run l with ⟨l', r⟩
  rw [hx] at this
  cases r <;> simpa using this

theorem conv_still {x : Live} (h : x.Still) (c : Arg → CRes) (l : List Int) : (conv c x l).1 = l := by
  have := h l
  unfold conv
  rcases hx : x.run l with ⟨l', r⟩
  rw [hx] at this
  cases r <;> simpa using this

@[simp] theorem conv_of {σ : Type} (c : Arg → CRes) (v : Int) (l : σ) : conv c (.of v) l = (l, c (.index v)) := rfl

/-- Bounds of an adjusted slice with step one. -/
theorem adjust_one {n a b : Int} (hn : 0 ≤ n) :
    0 ≤ (adjustIndices n a b 1).1 ∧ (adjustIndices n a b 1).1 ≤ n ∧ 0 ≤ (adjustIndices n a b 1).2.1 ∧
    (adjustIndices n a b 1).2.1 ≤ n ∧
    ((adjustIndices n a b 1).2.2 = (adjustIndices n a b 1).2.1 - (adjustIndices n a b 1).1 ∨
      (adjustIndices n a b 1).2.2 = 0) ∧ 0 ≤ (adjustIndices n a b 1).2.2 ∧
    (adjustIndices n a b 1).1 + (adjustIndices n a b 1).2.2 ≤ n := by
  simp only [adjustIndices, show ¬ ((1 : Int) < 0) by decide, if_false, Int.ediv_one]
  have hs : ∀ x : Int, 0 ≤ (if x < 0 then if x + n < 0 then 0 else x + n else if x ≥ n then n else x) ∧
      (if x < 0 then if x + n < 0 then 0 else x + n else if x ≥ n then n else x) ≤ n := by
    intro x
    split_ifs <;> omega
  have ha := hs a
  have hb := hs b
  revert ha hb
  generalize (if a < 0 then if a + n < 0 then 0 else a + n else if a ≥ n then n else a) = s
  generalize (if b < 0 then if b + n < 0 then 0 else b + n else if b ≥ n then n else b) = t
  intro ha hb
  split_ifs <;> omega

/-- The whole list as a slice. -/
theorem adjust_whole {n b : Int} (hn : 0 < n) (hb : n ≤ b) : adjustIndices n 0 b 1 = (0, n, n) := by
  have e1 : ¬ ((0 : Int) ≥ n) := by omega
  have e2 : ¬ (b < 0) := by omega
  simp only [adjustIndices, show ¬ ((1 : Int) < 0) by decide, show ¬ ((0 : Int) < 0) by decide, if_false, Int.ediv_one,
    e1, e2, ge_iff_le, hb, hn, if_true]
  congr 2
  omega

theorem unpack_whole {σ : Type} (l : σ) : unpack (.of none none none) l = (l, .ok (0, ssizeMax, 1)) := by
  have h : sliceStep none = .ok 1 := by
    simp only [sliceStep, sliceIndex]
    have : ¬ ((1 : Int) < -ssizeMax) := by simp only [ssizeMax]; omega
    simp [this]
  simp only [unpack, LSlice.of, Option.map_none, field, h, sliceUnpack, sliceIndex]
  simp

/-! ## Slice assignment -/

theorem assignLoop_safe {K : Kind} {start : Nat} : ∀ {n i : Nat} {l : List Int} {f : Feed}, f.Grows →
    start + i + n ≤ l.length →
    (∃ l' f', assignLoop K start n i l f = .ok (l', f') () ∧ l.length ≤ l'.length ∧ f'.Grows ∧
      (f.StillItems → f'.StillItems)) ∨
    (∃ s e, assignLoop K start n i l f = .exc s e) := by
  intro n
  induction n with
  | zero => intro i l f hf _; exact .inl ⟨l, f, by cases f <;> rfl, Nat.le_refl _, hf, id⟩
  | succ n ih =>
    intro i l f hf hb
    cases f with
    | done g => exact .inr ⟨_, _, rfl⟩
    | fail g e => exact .inr ⟨_, _, rfl⟩
    | item g x k =>
      obtain ⟨hg, hx, hk⟩ := hf
      have h1 := hg l
      have h2 := conv_grows hx (toElem K) (g l)
      unfold assignLoop
      rcases hc : conv (toElem K) x (g l) with ⟨l', v, e⟩
      rw [hc] at h2
      have h3 : start + i < l'.length := by dsimp only at h2; omega
      simp only [h3, if_true]
      cases e with
      | some e => exact .inr ⟨_, _, rfl⟩
      | none =>
        dsimp only at h2 ⊢
        rcases ih (i := i + 1) (l := l'.set (start + i) v) (hk l) (by rw [List.length_set]; omega) with
          ⟨l2, f2, he, hl, hf2, hs⟩ | h
        · exact .inl ⟨l2, f2, he, by rw [List.length_set] at hl; omega, hf2, fun h => hs (h.2 l)⟩
        · exact .inr h

theorem insertLoop_safe {early : Bool} {K : Kind} {start : Nat} : ∀ {n i : Nat} {l : List Int} {f : Feed}, f.Grows →
    (early = true → f.StillItems) → start + i ≤ l.length → ∀ u, insertLoop early K start n i l f ≠ .ub u := by
  intro n
  induction n with
  | zero => intro i l f _ _ _ u; cases f <;> simp [insertLoop]
  | succ n ih =>
    intro i l f hf hs hb u
    cases f with
    | done g => simp [insertLoop]
    | fail g e => simp [insertLoop]
    | item g x k =>
      obtain ⟨hg, hx, hk⟩ := hf
      have h1 := hg l
      have h2 := conv_grows hx (toElem K) (g l)
      have h4 : early = true → (conv (toElem K) x (g l)).1 = g l := fun h => conv_still (hs h).1 _ _
      unfold insertLoop
      rcases hc : conv (toElem K) x (g l) with ⟨l', v, e⟩
      rw [hc] at h2 h4
      have h3 : start + i ≤ l'.length ∧ (early = true → l' = g l) := ⟨by dsimp only at h2; omega, h4⟩
      simp only [if_pos h3]
      cases e with
      | some e => simp
      | none =>
        refine ih (hk l) (fun h => (hs h).2 l) ?_ u
        simp only [List.length_append, List.length_take, List.length_cons, List.length_drop]
        dsimp only at h2
        omega

theorem assignLoop_of {cfg : Cfg} {K : Kind} {start : Nat} {xs : List Arg} : ∀ {n i : Nat} {l : List Int} {vs : List Int},
    (∀ j, xs[i + j]? = vs[j]?.map Arg.index) →
    forget (assignLoop K start n i l (.of vs)) = ArrayList.assignLoop cfg K (.seq xs) start n i l ∧
    (∀ l' f, assignLoop K start n i l (.of vs) = .ok (l', f) () → f = .of (vs.drop n)) := by
  intro n
  induction n with
  | zero =>
    intro i l vs _
    refine ⟨by cases vs <;> rfl, ?_⟩
    intro l' f h
    have : assignLoop K start 0 i l (.of vs) = .ok (l, .of vs) () := by cases vs <;> rfl
    rw [this] at h
    simp only [Out.ok.injEq, Prod.mk.injEq, and_true] at h
    rw [← h.2, List.drop_zero]
  | succ n ih =>
    intro i l vs hv
    have h0 := hv 0
    cases vs with
    | nil =>
      simp only [Nat.add_zero, List.getElem?_nil, Option.map_none] at h0
      refine ⟨by simp [Feed.of, assignLoop, forget, ArrayList.assignLoop, srcItem, h0], ?_⟩
      intro l' f h
      simp [Feed.of, assignLoop] at h
    | cons v vs =>
      simp only [Nat.add_zero, List.getElem?_cons_zero, Option.map_some] at h0
      have hv' : ∀ j, xs[i + 1 + j]? = vs[j]?.map Arg.index := by
        intro j
        have := hv (j + 1)
        rw [List.getElem?_cons_succ] at this
        rw [← this]
        congr 1
        omega
      simp only [Feed.of, assignLoop, ArrayList.assignLoop, srcItem, h0, Option.map_some, id, conv_of]
      rcases toElem K (.index v) with ⟨w, e⟩
      by_cases hb : start + i < l.length
      · simp only [hb, if_true]
        cases e with
        | some e => exact ⟨rfl, by intro l' f h; simp at h⟩
        | none =>
          have := ih (i := i + 1) (l := l.set (start + i) w) hv'
          exact ⟨this.1, fun l' f h => by simpa using this.2 l' f h⟩
      · simp only [hb, if_false]
        exact ⟨rfl, by intro l' f h; simp at h⟩

theorem insertLoop_of {early : Bool} {cfg : Cfg} {K : Kind} {start : Nat} {xs : List Arg} :
    ∀ {n i : Nat} {l : List Int} {vs : List Int}, (∀ j, xs[i + j]? = vs[j]?.map Arg.index) →
    insertLoop early K start n i l (.of vs) = ArrayList.insertLoop cfg K (.seq xs) start n i l := by
  intro n
  induction n with
  | zero => intro i l vs _; cases vs <;> rfl
  | succ n ih =>
    intro i l vs hv
    have h0 := hv 0
    cases vs with
    | nil =>
      simp only [Nat.add_zero, List.getElem?_nil, Option.map_none] at h0
      simp [Feed.of, insertLoop, ArrayList.insertLoop, srcItem, h0]
    | cons v vs =>
      simp only [Nat.add_zero, List.getElem?_cons_zero, Option.map_some] at h0
      have hv' : ∀ j, xs[i + 1 + j]? = vs[j]?.map Arg.index := by
        intro j
        have := hv (j + 1)
        rw [List.getElem?_cons_succ] at this
        rw [← this]
        congr 1
        omega
      simp only [Feed.of, insertLoop, ArrayList.insertLoop, srcItem, h0, Option.map_some, id, conv_of, implies_true,
        and_true]
      rcases toElem K (.index v) with ⟨w, e⟩
      by_cases hb : start + i ≤ l.length
      · simp only [hb, if_true]
        cases e with
        | some e => rfl
        | none => exact ih hv'
      · simp only [hb, if_false]

/-! ## Comparisons -/

theorem eqLoop_safe {K : Kind} : ∀ {n i : Nat} {l : List Int} {f : Feed}, f.Grows → i + n ≤ l.length →
    ∀ u, eqLoop K n i l f ≠ .ub u := by
  intro n
  induction n with
  | zero => intro i l f _ _ u; cases f <;> simp [eqLoop]
  | succ n ih =>
    intro i l f hf hb u
    cases f with
    | done g => simp [eqLoop]
    | fail g e => simp [eqLoop]
    | item g x k =>
      obtain ⟨hg, hx, hk⟩ := hf
      have h1 := hg l
      have h2 := conv_grows hx (toElem K) (g l)
      have h3 : i < (g l).length := by omega
      unfold eqLoop
      simp only [List.getElem?_eq_getElem h3]
      rcases hc : conv (toElem K) x (g l) with ⟨l', v, e⟩
      rw [hc] at h2
      cases e with
      | some e => simp
      | none =>
        dsimp only at h2 ⊢
        split_ifs
        · simp
        · exact ih (hk l) (by omega) u

theorem ordLoop_safe {K : Kind} {op : CmpOp} {m : Int} : ∀ {n i : Nat} {l : List Int} {p : Option Exc} {f : Feed},
    f.Grows → i + n ≤ l.length → ∀ u, ordLoop K op m n i l p f ≠ .ub u := by
  intro n
  induction n with
  | zero => intro i l p f _ _ u; cases f <;> cases p <;> simp [ordLoop, boolOut]
  | succ n ih =>
    intro i l p f hf hb u
    cases f with
    | done g => simp [ordLoop]
    | fail g e => simp [ordLoop]
    | item g x k =>
      obtain ⟨hg, hx, hk⟩ := hf
      have h1 := hg l
      have h2 := conv_grows hx (toElem K) (g l)
      have h3 : i < (g l).length := by omega
      unfold ordLoop
      simp only [List.getElem?_eq_getElem h3]
      rcases hc : conv (toElem K) x (g l) with ⟨l', v, e⟩
      rw [hc] at h2
      dsimp only at h2 ⊢
      split_ifs
      · cases e <;> cases p <;> simp [boolOut]
      · exact ih (hk l) (by omega) u

/-- `==` answers (with or without an exception left behind) unless fetching an item fails. -/
theorem eqLoop_answers {K : Kind} : ∀ {n i : Nat} {l : List Int} {f : Feed}, f.Endless →
    (∃ l' b, eqLoop K n i l f = .ok l' (.bool b)) ∨ (∃ l' b e, eqLoop K n i l f = .pending l' (.bool b) e) ∨
      (∃ u, eqLoop K n i l f = .ub u) := by
  intro n
  induction n with
  | zero => intro i l f _; exact .inl ⟨l, true, by cases f <;> rfl⟩
  | succ n ih =>
    intro i l f hf
    cases f with
    | done g => exact hf.elim
    | fail g e => exact hf.elim
    | item g x k =>
      unfold eqLoop
      cases (g l)[i]? with
      | none => exact .inr (.inr ⟨_, rfl⟩)
      | some a =>
        rcases conv (toElem K) x (g l) with ⟨l', v, e⟩
        cases e with
        | some e => exact .inr (.inl ⟨_, _, _, rfl⟩)
        | none =>
          dsimp only
          split_ifs
          · exact .inl ⟨_, _, rfl⟩
          · exact ih (hf l)

theorem eqLoop_of {K : Kind} {l : List Int} : ∀ {n i : Nat} {vs : List Int}, vs.length = n → i + n = l.length →
    eqLoop K n i l (.of vs) =
      boolOut l (ArrayList.eqLoop (l.drop i) (vs.map fun v => toElem K (.index v))).1
        (ArrayList.eqLoop (l.drop i) (vs.map fun v => toElem K (.index v))).2 := by
  intro n
  induction n with
  | zero =>
    intro i vs hv hi
    obtain rfl := List.eq_nil_of_length_eq_zero hv
    rw [List.drop_eq_nil_of_le (by omega)]
    rfl
  | succ n ih =>
    intro i vs hv hi
    cases vs with
    | nil => simp at hv
    | cons v vs =>
      have hlt : i < l.length := by omega
      rw [List.drop_eq_getElem_cons hlt]
      simp only [Feed.of, eqLoop, id, List.getElem?_eq_getElem hlt, conv_of, List.map_cons, ArrayList.eqLoop]
      rcases toElem K (.index v) with ⟨w, e⟩
      cases e with
      | some e => rfl
      | none =>
        dsimp only
        by_cases h : l[i] = w
        · simp only [h, ne_eq, not_true_eq_false, if_false]
          exact ih (by simpa using hv) (by omega)
        · simp only [h, ne_eq, not_false_eq_true, if_true]
          rfl

theorem ordLoop_of {K : Kind} {op : CmpOp} {l : List Int} {m : Int} : ∀ {n i : Nat} {vs : List Int} {p : Option Exc},
    n = min (l.length - i) vs.length → i ≤ l.length →
    ordLoop K op m n i l p (.of vs) =
      match ArrayList.ordLoop op (l.drop i) (vs.map fun v => toElem K (.index v)) p with
      | (some b, p) => boolOut l b p
      | (none, p) => boolOut l (op.rel l.length m) p := by
  intro n
  induction n with
  | zero =>
    intro i vs p hv hi
    have h0 : ordLoop K op m 0 i l p (.of vs) = boolOut l (op.rel l.length m) p := by cases vs <;> rfl
    rw [h0]
    cases vs with
    | nil => cases l.drop i <;> rfl
    | cons v vs =>
      rw [List.drop_eq_nil_of_le (by simp at hv; omega)]
      rfl
  | succ n ih =>
    intro i vs p hv hi
    cases vs with
    | nil => simp at hv
    | cons v vs =>
      have hlt : i < l.length := by simp only [List.length_cons] at hv; omega
      rw [List.drop_eq_getElem_cons hlt]
      simp only [Feed.of, ordLoop, id, List.getElem?_eq_getElem hlt, conv_of, List.map_cons, ArrayList.ordLoop]
      by_cases h : l[i] = (toElem K (.index v)).1
      · simp only [h, ne_eq, not_true_eq_false, if_false]
        exact ih (by simp only [List.length_cons] at hv; omega) (by omega)
      · simp only [h, ne_eq, not_false_eq_true, if_true]

/-! ## Slices -/

theorem sliceStep_index (v : Int) : (v = 0 → sliceStep (some (.index v)) = .error .valueError) ∧
    (v ≠ 0 → ∃ w, sliceStep (some (.index v)) = .ok w) := by
  constructor
  · rintro rfl; rfl
  · intro h
    have hc : clampSsize v ≠ 0 := by
      simp only [clampSsize, ssizeMax]
      split_ifs <;> omega
    simp only [sliceStep, sliceIndex, hc, if_false]
    exact ⟨_, rfl⟩

theorem unpack_of {σ : Type} (i j k : Option Int) (l : σ) :
    unpack (.of i j k) l = (l, sliceUnpack ⟨i.map .index, j.map .index, k.map .index⟩) := by
  have hf : ∀ x : Option Int, field (x.map .of) l = (l, .ok (x.map .index)) := by intro x; cases x <;> rfl
  simp only [unpack, LSlice.of, hf]
  simp only [sliceUnpack]
  cases sliceStep (k.map .index) <;> rfl

end Verif.Foreign
