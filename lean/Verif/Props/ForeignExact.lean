import Verif.Lemmas.ForeignExact

/-!
# C55: exactly when comparisons and slice assignments leave the list

For a sequence of a user class whose methods run arbitrary code. `Through` (Spec/ForeignExact.lean) says which moments the
walk over its items reaches.
-/

namespace Verif.Props

open Verif.ArrayList Verif.Foreign

/-- `l == v`: it reads outside of the list exactly if `__len__` answers the number of elements there are by then, and after a
number of items that were equal to the elements, fetching the next one leaves the list too short for it. -/
theorem C55_eq_exact (K : Kind) (l : List Int) (v : Seq) (u : UB) :
    Foreign.compare K .eq l v = .ub u ↔ u = .outOfBounds ∧ ∃ l1 n, v.len l = (l1, .ok n) ∧ n = l1.length ∧
      ReadsOutside (goEqual K.bits) n l1 (v.items l) := by
  simp only [Foreign.compare, Foreign.eq, ReadsOutside]
  rcases hl : v.len l with ⟨l1, _ | n⟩
  · simp
  · dsimp only
    by_cases hn : n ≠ l1.length
    · rw [if_pos hn]
      refine ⟨fun h => (nomatch h), ?_⟩
      rintro ⟨-, a, m, e, hm, -⟩
      cases e
      exact absurd hm hn
    · rw [if_neg hn, eqLoop_ub, Nat.zero_add]
      constructor
      · rintro ⟨hu, h⟩
        exact ⟨hu, l1, n, rfl, by simpa using hn, h⟩
      · rintro ⟨hu, a, m, e, -, h⟩
        cases e
        exact ⟨hu, h⟩

/-- `l != v`: as for `==`, or it follows a null pointer, exactly if fetching an item raises after a number of items that were
equal to the elements. -/
theorem C55_ne_exact (K : Kind) (l : List Int) (v : Seq) (u : UB) :
    Foreign.compare K .ne l v = .ub u ↔ ∃ l1 n, v.len l = (l1, .ok n) ∧ n = l1.length ∧
      (u = .outOfBounds ∧ ReadsOutside (goEqual K.bits) n l1 (v.items l) ∨
        u = .nullDeref ∧ FetchRaises (goEqual K.bits) n l1 (v.items l)) := by
  have key : Foreign.ne K l v = .ub u ↔ Foreign.eq K l v = .ub u ∨ u = .nullDeref ∧ ∃ s e, Foreign.eq K l v = .exc s e := by
    unfold Foreign.ne
    rcases Foreign.eq K l v with ⟨s, r⟩ | ⟨s, e⟩ | ⟨s, r, e⟩ | w
    · cases r <;> simp
    · simp [eq_comm]
    · cases r <;> simp
    · simp
  have hE := C55_eq_exact K l v u
  simp only [Foreign.compare] at hE ⊢
  rw [key, hE]
  have hX : (∃ s e, Foreign.eq K l v = .exc s e) ↔ ∃ l1 n, v.len l = (l1, .ok n) ∧ n = l1.length ∧
      FetchRaises (goEqual K.bits) n l1 (v.items l) := by
    unfold Foreign.eq FetchRaises
    rcases hl : v.len l with ⟨l1, _ | n⟩
    · simp
    · dsimp only
      by_cases hn : n ≠ l1.length
      · rw [if_pos hn]
        refine ⟨fun ⟨_, _, h⟩ => (nomatch h), ?_⟩
        rintro ⟨a, m, e, hm, -⟩
        cases e
        exact absurd hm hn
      · rw [if_neg hn, eqLoop_exc, Nat.zero_add]
        constructor
        · intro h
          exact ⟨l1, n, rfl, by simpa using hn, h⟩
        · rintro ⟨a, m, e, -, h⟩
          cases e
          exact h
  rw [hX]
  constructor
  · rintro (⟨hu, a, n, h1, h2, h3⟩ | ⟨hu, a, n, h1, h2, h3⟩)
    · exact ⟨a, n, h1, h2, .inl ⟨hu, h3⟩⟩
    · exact ⟨a, n, h1, h2, .inr ⟨hu, h3⟩⟩
  · rintro ⟨a, n, h1, h2, ⟨hu, h3⟩ | ⟨hu, h3⟩⟩
    · exact .inl ⟨hu, a, n, h1, h2, h3⟩
    · exact .inr ⟨hu, a, n, h1, h2, h3⟩

/-- The orderings: the length need not be the same, and an item that cannot be converted counts as -1. -/
theorem C55_order_exact (K : Kind) (op : CmpOp) (ho : op ≠ .eq ∧ op ≠ .ne) (l : List Int) (v : Seq) (u : UB) :
    Foreign.compare K op l v = .ub u ↔ u = .outOfBounds ∧ ∃ l1 n, v.len l = (l1, .ok n) ∧
      ReadsOutside (goOrder K.bits) (min l1.length n) l1 (v.items l) := by
  have h : Foreign.compare K op l v = Foreign.ord K op l v := by
    cases op with
    | eq => exact absurd rfl ho.1
    | ne => exact absurd rfl ho.2
    | lt => rfl
    | le => rfl
    | gt => rfl
    | ge => rfl
  rw [h]
  unfold Foreign.ord ReadsOutside
  rcases hl : v.len l with ⟨l1, _ | n⟩
  · refine ⟨fun h => absurd h boolOut_ub, ?_⟩
    rintro ⟨-, a, m, e, -⟩
    cases e
  · dsimp only
    rw [ordLoop_ub, Nat.zero_add]
    constructor
    · rintro ⟨hu, h⟩
      exact ⟨hu, l1, n, rfl, h⟩
    · rintro ⟨hu, a, m, e, h⟩
      cases e
      exact ⟨hu, h⟩

/-- `l[a:b] = v`, where `s` is the slice: let `start`, `stop` and `n` be its bounds and its number of elements in the list `l1` that
the code of its fields left (`unpack` and `adjustIndices` are `PySlice_Unpack` and `PySlice_AdjustIndices` of CPython), and `l2` the
list that `__len__` left. The assignment leaves the list exactly if
* a conversion leaves the list too short for the item to be stored, or
* there are fewer items than the slice has elements, and in the end the list does not reach to the end of the slice, or
* there are more, and there is no room where one of the others is to be inserted, or
* `__len__` raises (which counts as -1 items), and the slice starts at the front, or it is inverted by more than one, or the
  list does not reach to its end. -/
theorem C55_slice_assignment_exact (early : Bool) (K : Kind) (l : List Int) (s : LSlice) (v : Seq) (u : UB) :
    Foreign.setSlice early K l s v = .ub u ↔ ∃ (l1 l2 : List Int) (a b start stop n : Int) (r : Except Exc Nat),
      unpack s l = (l1, .ok (a, b, 1)) ∧ adjustIndices l1.length a b 1 = (start, stop, n) ∧ v.len l1 = (l2, r) ∧
      ((∃ m, r = .ok m ∧ u = .outOfBounds ∧ StoresOutside K.bits start.toNat (min m n.toNat) l2 (v.items l1)) ∨
       (∃ m : Nat, r = .ok m ∧ u = .badIterator ∧ m < n ∧ ∃ l' f', Through (goStore K.bits start.toNat) 0 l2 (v.items l1) m l' f' ∧
          l'.length < stop) ∨
       (∃ m : Nat, r = .ok m ∧ u = .badIterator ∧ n < m ∧ InsertsOutside early K.bits start.toNat n.toNat m l2 (v.items l1)) ∨
       (∃ e, r = .error e ∧ u = .badIterator ∧ (start = 0 ∨ stop < start - 1 ∨ l2.length < stop))) := by
  unfold Foreign.setSlice
  rcases hu : unpack s l with ⟨l1, _ | ⟨a, b, c⟩⟩
  · simp
  · dsimp only
    by_cases hc : c = 1
    · subst hc
      obtain ⟨h1, h2, h3, h4, h5, h6, h7⟩ := adjust_one (n := (l1.length : Int)) (a := a) (b := b) (by omega)
      rcases hadj : adjustIndices (l1.length : Int) a b 1 with ⟨st, sp, n⟩
      rw [hadj] at h1 h2 h3 h4 h5 h6 h7
      dsimp only at h1 h2 h3 h4 h5 h6 h7 ⊢
      rcases hl : v.len l1 with ⟨l2, e | m⟩
      · dsimp only
        simp only [assign, ne_eq, not_true_eq_false, if_false]
        rw [if_neg (show ¬ ((-1 : Int) = n) by omega), if_pos (show (-1 : Int) < n by omega)]
        have h0 : assignLoop K st.toNat (-1 : Int).toNat 0 l2 (v.items l1) = .ok (l2, v.items l1) () := by
          unfold Foreign.assignLoop
          rfl
        rw [h0]
        dsimp only
        by_cases hcnd : 0 ≤ st + -1 ∧ st + -1 ≤ sp ∧ sp ≤ l2.length
        · rw [if_pos hcnd]
          refine ⟨fun h => (nomatch h), ?_⟩
          rintro ⟨x1, x2, xa, xb, xs, xt, xn, xr, e1, e2, e3, h⟩
          cases e1
          rw [hadj] at e2
          cases e2
          rw [hl] at e3
          cases e3
          rcases h with ⟨_, h, _⟩ | ⟨_, h, _⟩ | ⟨_, h, _⟩ | ⟨_, _, _, h⟩
          · cases h
          · cases h
          · cases h
          · omega
        · rw [if_neg hcnd]
          constructor
          · intro h
            cases h
            exact ⟨l1, l2, a, b, st, sp, n, .error e, rfl, hadj, hl, .inr (.inr (.inr ⟨e, rfl, rfl, by omega⟩))⟩
          · rintro ⟨x1, x2, xa, xb, xs, xt, xn, xr, e1, e2, e3, h⟩
            cases e1
            rw [hl] at e3
            cases e3
            rcases h with ⟨_, h, _⟩ | ⟨_, h, _⟩ | ⟨_, h, _⟩ | ⟨_, _, rfl, _⟩
            · cases h
            · cases h
            · cases h
            · rfl
      · dsimp only
        simp only [assign, ne_eq, not_true_eq_false, if_false]
        have back : ∀ {P : Prop}, (P ↔
            ((u = .outOfBounds ∧ StoresOutside K.bits st.toNat (min m n.toNat) l2 (v.items l1)) ∨
             (u = .badIterator ∧ (m : Int) < n ∧ ∃ l' f', Through (goStore K.bits st.toNat) 0 l2 (v.items l1) m l' f' ∧
                l'.length < sp) ∨
             (u = .badIterator ∧ n < (m : Int) ∧ InsertsOutside early K.bits st.toNat n.toNat m l2 (v.items l1)))) →
            (P ↔ ∃ (l1' l2 : List Int) (a' b' start stop n : Int) (r : Except Exc Nat),
              (l1, (.ok (a, b, 1) : Except Exc (Int × Int × Int))) = (l1', .ok (a', b', 1)) ∧
              adjustIndices l1'.length a' b' 1 = (start, stop, n) ∧ v.len l1' = (l2, r) ∧
              ((∃ m, r = .ok m ∧ u = .outOfBounds ∧ StoresOutside K.bits start.toNat (min m n.toNat) l2 (v.items l1')) ∨
               (∃ m : Nat, r = .ok m ∧ u = .badIterator ∧ m < n ∧ ∃ l' f', Through (goStore K.bits start.toNat) 0 l2 (v.items l1') m l' f' ∧
                  l'.length < stop) ∨
               (∃ m : Nat, r = .ok m ∧ u = .badIterator ∧ n < m ∧ InsertsOutside early K.bits start.toNat n.toNat m l2 (v.items l1')) ∨
               (∃ e, r = .error e ∧ u = .badIterator ∧ (start = 0 ∨ stop < start - 1 ∨ l2.length < stop)))) := by
          intro P hP
          rw [hP]
          constructor
          · intro h
            refine ⟨l1, l2, a, b, st, sp, n, .ok m, rfl, hadj, hl, ?_⟩
            rcases h with h | h | h
            · exact .inl ⟨m, rfl, h⟩
            · exact .inr (.inl ⟨m, rfl, h⟩)
            · exact .inr (.inr (.inl ⟨m, rfl, h⟩))
          · rintro ⟨x1, x2, xa, xb, xs, xt, xn, xr, e1, e2, e3, h⟩
            cases e1
            rw [hadj] at e2
            cases e2
            rw [hl] at e3
            cases e3
            rcases h with ⟨m', e, h⟩ | ⟨m', e, h⟩ | ⟨m', e, h⟩ | ⟨_, e, _⟩
            · cases e
              exact .inl h
            · cases e
              exact .inr (.inl h)
            · cases e
              exact .inr (.inr h)
            · cases e
        apply back
        clear back
        unfold StoresOutside InsertsOutside
        by_cases e1 : (m : Int) = n
        · rw [if_pos e1, forget_ub, assignLoop_ub, show min m n.toNat = n.toNat by omega, Nat.zero_add]
          constructor
          · exact .inl
          · rintro (h | ⟨_, h, _⟩ | ⟨_, h, _⟩)
            · exact h
            · omega
            · omega
        · rw [if_neg e1]
          by_cases e2 : (m : Int) < n
          · rw [if_pos e2, show min m n.toNat = m by omega, Int.toNat_natCast]
            rcases hA : assignLoop K st.toNat m 0 l2 (v.items l1) with ⟨⟨l', f'⟩, ⟨⟩⟩ | ⟨s', e⟩ | ⟨s', ⟨⟩, e⟩ | w
            · dsimp only
              have ht := assignLoop_ok.mp hA
              rw [Nat.zero_add] at ht
              have hno : ¬ ∃ j l' g x k, j < m ∧ Through (goStore K.bits st.toNat) 0 l2 (v.items l1) j l' (.item g x k) ∧
                  (x.run (g l')).1.length ≤ st.toNat + j := by
                intro h
                have := assignLoop_ub (u := .outOfBounds) (n := m) (i := 0) (l := l2) (f := v.items l1) (K := K)
                  (start := st.toNat) |>.mpr ⟨rfl, by simpa only [Nat.zero_add] using h⟩
                rw [hA] at this
                cases this
              have huniq : ∀ x f, Through (goStore K.bits st.toNat) 0 l2 (v.items l1) m x f → x = l' := by
                intro x f hx
                have := assignLoop_ok (K := K) (n := m) (i := 0) |>.mpr (by rw [Nat.zero_add]; exact hx)
                rw [hA] at this
                cases this
                rfl
              by_cases hcnd : 0 ≤ st + (m : Int) ∧ st + (m : Int) ≤ sp ∧ sp ≤ l'.length
              · rw [if_pos hcnd]
                refine ⟨fun h => (nomatch h), ?_⟩
                rintro (⟨_, h⟩ | ⟨_, _, x, f, h, h'⟩ | ⟨_, h, _⟩)
                · exact absurd h hno
                · rw [huniq x f h] at h'
                  omega
                · omega
              · rw [if_neg hcnd]
                constructor
                · intro h
                  cases h
                  exact .inr (.inl ⟨rfl, e2, l', f', ht, by omega⟩)
                · rintro (⟨_, h⟩ | ⟨rfl, _⟩ | ⟨_, h, _⟩)
                  · exact absurd h hno
                  · rfl
                  · omega
            · refine ⟨fun h => ?_, ?_⟩
              · rw [forget_ub] at h
                cases h
              · have hn : ∀ w, assignLoop K st.toNat m 0 l2 (v.items l1) ≠ .ub w := by
                  intro w
                  rw [hA]
                  simp
                rintro (h | ⟨_, _, x, f, h, -⟩ | ⟨_, h, _⟩)
                · exact absurd (assignLoop_ub.mpr (by simpa only [Nat.zero_add] using h)) (hn u)
                · have := assignLoop_ok (K := K) (n := m) (i := 0) |>.mpr (by rw [Nat.zero_add]; exact h)
                  rw [hA] at this
                  cases this
                · omega
            · exfalso
              exact assignLoop_not_pending hA
            · have hw : (forget (.ub w) = .ub u) ↔ Foreign.assignLoop K st.toNat m 0 l2 (v.items l1) = .ub u := by
                rw [hA, forget_ub]
              refine hw.trans ?_
              rw [assignLoop_ub, Nat.zero_add]
              constructor
              · exact .inl
              · rintro (h | ⟨_, _, x, f, h, -⟩ | ⟨_, h, _⟩)
                · exact h
                · have := assignLoop_ok (K := K) (n := m) (i := 0) |>.mpr (by rw [Nat.zero_add]; exact h)
                  rw [hA] at this
                  cases this
                · omega
          · rw [if_neg e2, show min m n.toNat = n.toNat by omega]
            rcases hA : assignLoop K st.toNat n.toNat 0 l2 (v.items l1) with ⟨⟨l', f'⟩, ⟨⟩⟩ | ⟨s', e⟩ | ⟨s', ⟨⟩, e⟩ | w
            · dsimp only
              have ht := assignLoop_ok.mp hA
              rw [Nat.zero_add] at ht
              have hno : ¬ ∃ j l' g x k, j < n.toNat ∧ Through (goStore K.bits st.toNat) 0 l2 (v.items l1) j l' (.item g x k) ∧
                  (x.run (g l')).1.length ≤ st.toNat + j := by
                intro h
                have := assignLoop_ub (u := .outOfBounds) (n := n.toNat) (i := 0) (l := l2) (f := v.items l1) (K := K)
                  (start := st.toNat) |>.mpr ⟨rfl, by simpa only [Nat.zero_add] using h⟩
                rw [hA] at this
                cases this
              rw [insertLoop_ub, show n.toNat + ((m : Int) - n).toNat = m by omega]
              constructor
              · rintro ⟨hu, j, x, g, y, k, hj, h, h'⟩
                exact .inr (.inr ⟨hu, by omega, l', f', j, x, g, y, k, hj, ht, h, h'⟩)
              · rintro (⟨_, h⟩ | ⟨_, h, _⟩ | ⟨hu, _, x', f'', j, x, g, y, k, hj, hx, h, h'⟩)
                · exact absurd h hno
                · omega
                · have := assignLoop_ok (K := K) (n := n.toNat) (i := 0) |>.mpr (by rw [Nat.zero_add]; exact hx)
                  rw [hA] at this
                  cases this
                  exact ⟨hu, j, x, g, y, k, hj, h, h'⟩
            · refine ⟨fun h => ?_, ?_⟩
              · rw [forget_ub] at h
                cases h
              · have hn : ∀ w, assignLoop K st.toNat n.toNat 0 l2 (v.items l1) ≠ .ub w := by
                  intro w
                  rw [hA]
                  simp
                rintro (h | ⟨_, h, _⟩ | ⟨_, _, x', f'', j, x, g, y, k, hj, hx, h, h'⟩)
                · exact absurd (assignLoop_ub.mpr (by simpa only [Nat.zero_add] using h)) (hn u)
                · omega
                · have := assignLoop_ok (K := K) (n := n.toNat) (i := 0) |>.mpr (by rw [Nat.zero_add]; exact hx)
                  rw [hA] at this
                  cases this
            · exfalso
              exact assignLoop_not_pending hA
            · have hw : (forget (.ub w) = .ub u) ↔ Foreign.assignLoop K st.toNat n.toNat 0 l2 (v.items l1) = .ub u := by
                rw [hA, forget_ub]
              refine hw.trans ?_
              rw [assignLoop_ub, Nat.zero_add]
              constructor
              · exact .inl
              · rintro (h | ⟨_, h, _⟩ | ⟨_, _, x', f'', j, x, g, y, k, hj, hx, h, h'⟩)
                · exact h
                · omega
                · have := assignLoop_ok (K := K) (n := n.toNat) (i := 0) |>.mpr (by rw [Nat.zero_add]; exact hx)
                  rw [hA] at this
                  cases this
    · have hx : ∀ (start stop n m : Int) p l' f, Foreign.assign early K start stop c n m p l' f ≠ .ub u := by
        intros
        simp [assign, hc]
      constructor
      · intro h
        rcases hl : v.len l1 with ⟨l2, _ | m⟩
        · rw [hl] at h
          exact absurd h (hx _ _ _ _ _ _ _)
        · rw [hl] at h
          exact absurd h (hx _ _ _ _ _ _ _)
      · rintro ⟨x1, x2, xa, xb, xs, xt, xn, xr, e1, -⟩
        cases e1
        exact absurd rfl hc

/-! ## The hypotheses can be met -/

/-- A sequence of two items equal to those of `[1, 2, 3]`; fetching the second one removes all but one element. -/
private def cutting : Seq :=
  ⟨fun l => (l, .ok 3), fun _ => .item id (.of 1) fun _ => .item (List.take 1) (.of 2) fun _ => .done id⟩

example : Foreign.compare .i32 .eq [1, 2, 3] cutting = .ub .outOfBounds :=
  (C55_eq_exact .i32 [1, 2, 3] cutting _).mpr ⟨rfl, [1, 2, 3], 3, rfl, rfl, 1, [1, 2, 3], _, _, _, by decide,
    .next ⟨rfl, 1, rfl, by decide⟩ .here, by decide⟩

/-- The first items differ: the second one is never fetched. -/
example (u : UB) : Foreign.compare .i32 .eq [9, 2, 3] cutting ≠ .ub u := by
  have h : Foreign.compare .i32 .eq [9, 2, 3] cutting = .ok [9, 2, 3] (.bool false) := by decide
  rw [h]
  simp
example : Foreign.compare .i32 .ne [1, 2] ⟨fun l => (l, .ok 2), fun _ => .item id (.of 1) fun _ => .fail id (.user 1)⟩ =
    .ub .nullDeref :=
  (C55_ne_exact .i32 [1, 2] _ _).mpr ⟨[1, 2], 2, rfl, rfl, .inr ⟨rfl, 1, [1, 2], _, by decide,
    .next ⟨rfl, 1, rfl, by decide⟩ .here, .inr ⟨id, .user 1, rfl⟩⟩⟩

/-- The first item cannot be converted, and the first element is -1. -/
example : Foreign.compare .i32 .lt [-1, 2] ⟨fun l => (l, .ok 2), fun _ => .item id ⟨fun l => (l, .error (.user 1))⟩ fun _ =>
    .item (fun _ => []) (.of 2) fun _ => .done id⟩ = .ub .outOfBounds :=
  (C55_order_exact .i32 .lt ⟨by decide, by decide⟩ [-1, 2] _ _).mpr ⟨rfl, [-1, 2], 2, rfl, 1, [-1, 2], _, _, _, by decide,
    .next ⟨rfl, -1, rfl, rfl⟩ .here, by decide⟩

/-- `l[0:2] = v` for one item whose conversion removes the last element. -/
example : Foreign.setSlice false .i32 [1, 2] (.of (some 0) (some 2) none)
    ⟨fun l => (l, .ok 1), fun _ => .item id ⟨fun l => (l.take 1, .ok 5)⟩ fun _ => .done id⟩ = .ub .badIterator :=
  (C55_slice_assignment_exact false .i32 [1, 2] _ _ _).mpr ⟨[1, 2], [1, 2], 0, 2, 0, 2, 2, .ok 1, rfl, by decide, rfl,
    .inr (.inl ⟨1, rfl, rfl, by decide, [5], .done id, .next ⟨by decide, 5, by decide, rfl⟩ .here, by decide⟩)⟩

/-- `l[0:0] = v` where `__len__` raises. -/
example : Foreign.setSlice false .i32 [1, 2] (.of (some 0) (some 0) none)
    ⟨fun l => (l, .error (.user 1)), fun _ => .done id⟩ = .ub .badIterator :=
  (C55_slice_assignment_exact false .i32 [1, 2] _ _ _).mpr ⟨[1, 2], [1, 2], 0, 0, 0, 0, 0, .error (.user 1), rfl,
    by decide, rfl, .inr (.inr (.inr ⟨.user 1, rfl, rfl, .inl rfl⟩))⟩

end Verif.Props
