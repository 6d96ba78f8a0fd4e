import Verif.Lemmas.ForeignLinkedExact
import Verif.Lemmas.ForeignLinkedSlice
import Verif.Lemmas.ForeignExact

/-!
# C55: exactly when comparisons and slice assignments of an IntLinkedList use a node that is gone

For a sequence of a user class whose methods run arbitrary code. `LThrough` (Spec/ForeignExact.lean) says which moments the
walk over its items and the nodes reaches.
-/

namespace Verif.Props

open Verif.ForeignLinked
open Verif.LinkedList (S LLOut boolOut)
open Verif.Foreign (sameValue sameOrder LReadsOutside LFetchRaises LStores LInserts LStoresOutside remaining unpack)

private theorem begin_eq (s : S) : iterAt s 0 = s.nodes.head?.map Prod.fst := by
  unfold iterAt LState.ids
  cases s.nodes <;> rfl

/-- `l == v`: it reads a node that is gone, or behind the last one, exactly if `__len__` answers the number of elements there
are by then, and some item and node that the walk gets to are such. -/
theorem C55_linked_eq_exact (s : S) (v : Seq) (u : UB) :
    ForeignLinked.compare .eq s v = .ub u ↔ ∃ s1 n, v.len s = (s1, .ok n) ∧ n = s1.vals.length ∧
      LReadsOutside sameValue n s1 (v.items s) u := by
  simp only [ForeignLinked.compare, ForeignLinked.eq, LState.length_vals]
  rcases hl : v.len s with ⟨s1, _ | n⟩
  · simp
  · dsimp only
    by_cases hn : n ≠ s1.size
    · rw [if_pos hn]
      refine ⟨fun h => (nomatch h), ?_⟩
      rintro ⟨a, m, e, hm, -⟩
      cases e
      exact absurd hm hn
    · rw [if_neg hn, ForeignLinked.eqLoop_ub, begin_eq]
      constructor
      · intro h
        exact ⟨s1, n, rfl, by simpa using hn, h⟩
      · rintro ⟨a, m, e, -, h⟩
        cases e
        exact h

/-- `l != v`: as for `==`, or it follows a null pointer, exactly if fetching an item raises after a number of items that were
equal to the elements. -/
theorem C55_linked_ne_exact (s : S) (v : Seq) (u : UB) :
    ForeignLinked.compare .ne s v = .ub u ↔ ∃ s1 n, v.len s = (s1, .ok n) ∧ n = s1.vals.length ∧
      (LReadsOutside sameValue n s1 (v.items s) u ∨ u = .nullDeref ∧ LFetchRaises sameValue n s1 (v.items s)) := by
  have key : ForeignLinked.ne s v = .ub u ↔ ForeignLinked.eq s v = .ub u ∨
      u = .nullDeref ∧ ∃ s' e, ForeignLinked.eq s v = .exc s' e := by
    unfold ForeignLinked.ne
    rcases ForeignLinked.eq s v with ⟨s, r⟩ | ⟨s, e⟩ | ⟨s, r, e⟩ | w
    · cases r <;> simp
    · simp [eq_comm]
    · cases r <;> simp
    · simp
  have hE := C55_linked_eq_exact s v u
  simp only [ForeignLinked.compare] at hE ⊢
  rw [key, hE]
  have hX : (∃ s' e, ForeignLinked.eq s v = .exc s' e) ↔ ∃ s1 n, v.len s = (s1, .ok n) ∧ n = s1.vals.length ∧
      LFetchRaises sameValue n s1 (v.items s) := by
    simp only [ForeignLinked.eq, LState.length_vals]
    rcases hl : v.len s with ⟨s1, _ | n⟩
    · simp
    · dsimp only
      by_cases hn : n ≠ s1.size
      · rw [if_pos hn]
        refine ⟨fun ⟨_, _, h⟩ => (nomatch h), ?_⟩
        rintro ⟨a, m, e, hm, -⟩
        cases e
        exact absurd hm hn
      · rw [if_neg hn, ForeignLinked.eqLoop_exc, begin_eq]
        constructor
        · intro h
          exact ⟨s1, n, rfl, by simpa using hn, h⟩
        · rintro ⟨a, m, e, -, h⟩
          cases e
          exact h
  rw [hX]
  constructor
  · rintro (⟨a, n, h1, h2, h3⟩ | ⟨hu, a, n, h1, h2, h3⟩)
    · exact ⟨a, n, h1, h2, .inl h3⟩
    · exact ⟨a, n, h1, h2, .inr ⟨hu, h3⟩⟩
  · rintro ⟨a, n, h1, h2, h3 | ⟨hu, h3⟩⟩
    · exact .inl ⟨a, n, h1, h2, h3⟩
    · exact .inr ⟨hu, a, n, h1, h2, h3⟩

/-- The orderings: elements are compared only if there are as many as items, and an item that cannot be converted counts as
-1. -/
theorem C55_linked_order_exact (op : CmpOp) (ho : op ≠ .eq ∧ op ≠ .ne) (s : S) (v : Seq) (u : UB) :
    ForeignLinked.compare op s v = .ub u ↔ ∃ s1 n, v.len s = (s1, .ok n) ∧ n = s1.vals.length ∧
      LReadsOutside sameOrder n s1 (v.items s) u := by
  have h : ForeignLinked.compare op s v = ForeignLinked.ord op s v := by
    cases op with
    | eq => exact absurd rfl ho.1
    | ne => exact absurd rfl ho.2
    | lt => rfl
    | le => rfl
    | gt => rfl
    | ge => rfl
  rw [h]
  simp only [ForeignLinked.ord, LState.length_vals]
  rcases hl : v.len s with ⟨s1, _ | n⟩
  · simp
  · dsimp only
    by_cases hn : s1.size ≠ n
    · rw [if_pos hn]
      refine ⟨fun h => (nomatch h), ?_⟩
      rintro ⟨a, m, e, hm, -⟩
      cases e
      exact absurd hm.symm hn
    · rw [if_neg hn, ForeignLinked.ordLoop_ub, begin_eq]
      constructor
      · intro h
        exact ⟨s1, n, rfl, (by simpa using hn : s1.size = n).symm, h⟩
      · rintro ⟨a, m, e, -, h⟩
        cases e
        exact h

/-- `l[a:b] = v`, where `sl` is the slice: let `start` and `n` be its first position and its number of elements in the list `s1` that
the code of its fields left (`unpack` and `adjustIndices` are `PySlice_Unpack` and `PySlice_AdjustIndices` of CPython), `s2` the list
that `__len__` left, and `at_` the node at `start` in it. The assignment uses a node that is gone or goes past the last one exactly if
* it does so at one of the items that are stored in the nodes of the slice, or
* there are fewer items than the slice has elements, and in the end the node behind the last item is gone or has too few nodes
  behind it, or
* there are more, and the node before which they are inserted is gone after the conversion of one of them, or
* `__len__` raises (which counts as -1 items), and there are not `n + 1` nodes from `at_` on. -/
theorem C55_linked_slice_assignment_exact (s : S) (sl : LSlice) (v : Seq) (u : UB) :
    ForeignLinked.setSlice s sl v = .ub u ↔ ∃ (s1 s2 : S) (a b start stop n : Int) (r : Except Exc Nat) (at_ : Option Nat),
      unpack sl s = (s1, .ok (a, b, 1)) ∧ adjustIndices s1.vals.length a b 1 = (start, stop, n) ∧ v.len s1 = (s2, r) ∧
      at_ = s2.ids[start.toNat]? ∧
      ((∃ m, r = .ok m ∧ LStoresOutside (min m n.toNat) at_ s2 (v.items s1) u) ∨
       (∃ m : Nat, r = .ok m ∧ m < n ∧ ∃ at' s' f', LStores at_ s2 (v.items s1) m at' s' f' ∧
          (remaining s'.nodes at' = none ∧ u = .useAfterFree ∨
            ∃ q : Nat, remaining s'.nodes at' = some q ∧ q < n - m ∧ u = .badIterator)) ∨
       (∃ m : Nat, r = .ok m ∧ n < m ∧ ∃ (at' : Option Nat) (s' : S) (f' : Feed) (c : Nat) (s'' : S) (g : S → S) (x : Live)
          (k : S → Feed), LStores at_ s2 (v.items s1) n.toNat at' s' f' ∧ c < m - n ∧
          LInserts at' s' f' c s'' (.item g x k) ∧ remaining (x.run (g s'')).1.nodes at' = none ∧ u = .useAfterFree) ∨
       (∃ (e : Exc) (q : Nat), r = .error e ∧ remaining s2.nodes at_ = some q ∧ q < n + 1 ∧ u = .badIterator)) := by
  unfold ForeignLinked.setSlice
  rcases hu : unpack sl s with ⟨s1, _ | ⟨a, b, c⟩⟩
  · simp
  · dsimp only
    by_cases hc : c = 1
    · subst hc
      have hlen : (s1.vals.length : Int) = s1.size := by rw [LState.length_vals]
      obtain ⟨h1, h2, h3, h4, h5, h6, h7⟩ := Foreign.adjust_one (n := (s1.size : Int)) (a := a) (b := b) (by omega)
      rcases hadj : adjustIndices (s1.size : Int) a b 1 with ⟨st, sp, n⟩
      rw [hadj] at h1 h2 h3 h4 h5 h6 h7
      dsimp only at h1 h2 h3 h4 h5 h6 h7 ⊢
      have hit : ∀ s2 : S, iterAt s2 (min st.toNat s2.size) = s2.ids[st.toNat]? := by
        intro s2
        unfold iterAt
        by_cases h : st.toNat ≤ s2.size
        · rw [Nat.min_eq_left h]
        · rw [Nat.min_eq_right (by omega), List.getElem?_eq_none (by simp [LState.ids, LState.size]),
            List.getElem?_eq_none (by rw [LState.length_ids]; omega)]
      rcases hl : v.len s1 with ⟨s2, e | m⟩
      · dsimp only
        simp only [assign, ne_eq, not_true_eq_false, if_false, listAt_eq, hit]
        rw [if_neg (show ¬ ((-1 : Int) = n) by omega), if_pos (show (-1 : Int) < n by omega)]
        have h0 : ForeignLinked.assignLoop (-1 : Int).toNat s2 s2.ids[st.toNat]? (v.items s1) =
            .ok (s2, s2.ids[st.toNat]?, v.items s1) () := by
          unfold ForeignLinked.assignLoop
          rfl
        rw [h0]
        dsimp only
        rw [eraseSome_ub (by omega)]
        have hne : remaining s2.nodes s2.ids[st.toNat]? ≠ none := by
          intro h
          cases hid : s2.ids[st.toNat]? with
          | none =>
            rw [hid] at h
            cases hns : s2.nodes <;> rw [hns] at h <;> cases h
          | some id =>
            rw [hid] at h
            rcases place_remaining (s := s2) (it := some id) with ⟨_, hp⟩ | ⟨p, q, hq, _⟩
            · have hm : id ∈ s2.ids := List.mem_of_getElem? hid
              unfold place at hp
              cases hx : List.idxOf? id s2.ids with
              | none => exact absurd hm (List.idxOf?_eq_none_iff.mp hx)
              | some q =>
                simp only [hx] at hp
                cases hp
            · rw [h] at hq
              cases hq
        constructor
        · rintro (⟨h, -⟩ | ⟨q, h, h', rfl⟩)
          · exact absurd h hne
          · exact ⟨s1, s2, a, b, st, sp, n, .error e, _, rfl, by rw [hlen]; exact hadj, hl, rfl,
              .inr (.inr (.inr ⟨e, q, rfl, h, by omega, rfl⟩))⟩
        · rintro ⟨x1, x2, xa, xb, xs, xt, xn, xr, xi, e1, e2, e3, e4, h⟩
          cases e1
          rw [hlen, hadj] at e2
          cases e2
          rw [hl] at e3
          cases e3
          subst e4
          rcases h with ⟨_, h, _⟩ | ⟨_, h, _⟩ | ⟨_, h, _⟩ | ⟨_, q, _, h, h', rfl⟩
          · cases h
          · cases h
          · cases h
          · exact .inr ⟨q, h, by omega, rfl⟩
      · dsimp only
        simp only [assign, ne_eq, not_true_eq_false, if_false, listAt_eq, hit]
        generalize hat : s2.ids[st.toNat]? = it
        have back : ∀ {P : Prop}, (P ↔
            (LStoresOutside (min m n.toNat) it s2 (v.items s1) u ∨
             ((m : Int) < n ∧ ∃ at' s' f', LStores it s2 (v.items s1) m at' s' f' ∧
                (remaining s'.nodes at' = none ∧ u = .useAfterFree ∨
                  ∃ q : Nat, remaining s'.nodes at' = some q ∧ (q : Int) < n - m ∧ u = .badIterator)) ∨
             (n < (m : Int) ∧ ∃ (at' : Option Nat) (s' : S) (f' : Feed) (c : Nat) (s'' : S) (g : S → S) (x : Live) (k : S → Feed),
                LStores it s2 (v.items s1) n.toNat at' s' f' ∧ (c : Int) < m - n ∧
                LInserts at' s' f' c s'' (.item g x k) ∧ remaining (x.run (g s'')).1.nodes at' = none ∧ u = .useAfterFree))) →
            (P ↔ ∃ (s1' s2 : S) (a' b' start stop n : Int) (r : Except Exc Nat) (at_ : Option Nat),
              (s1, (.ok (a, b, 1) : Except Exc (Int × Int × Int))) = (s1', .ok (a', b', 1)) ∧
              adjustIndices s1'.vals.length a' b' 1 = (start, stop, n) ∧ v.len s1' = (s2, r) ∧
              at_ = s2.ids[start.toNat]? ∧
              ((∃ m, r = .ok m ∧ LStoresOutside (min m n.toNat) at_ s2 (v.items s1') u) ∨
               (∃ m : Nat, r = .ok m ∧ m < n ∧ ∃ at' s' f', LStores at_ s2 (v.items s1') m at' s' f' ∧
                  (remaining s'.nodes at' = none ∧ u = .useAfterFree ∨
                    ∃ q : Nat, remaining s'.nodes at' = some q ∧ q < n - m ∧ u = .badIterator)) ∨
               (∃ m : Nat, r = .ok m ∧ n < m ∧ ∃ (at' : Option Nat) (s' : S) (f' : Feed) (c : Nat) (s'' : S) (g : S → S) (x : Live)
                  (k : S → Feed), LStores at_ s2 (v.items s1') n.toNat at' s' f' ∧
                  c < m - n ∧ LInserts at' s' f' c s'' (.item g x k) ∧ remaining (x.run (g s'')).1.nodes at' = none ∧
                  u = .useAfterFree) ∨
               (∃ (e : Exc) (q : Nat), r = .error e ∧ remaining s2.nodes at_ = some q ∧ q < n + 1 ∧ u = .badIterator))) := by
          intro P hP
          rw [hP]
          constructor
          · intro h
            refine ⟨s1, s2, a, b, st, sp, n, .ok m, it, rfl, by rw [hlen]; exact hadj, hl, hat.symm, ?_⟩
            rcases h with h | h | h
            · exact .inl ⟨m, rfl, h⟩
            · exact .inr (.inl ⟨m, rfl, h⟩)
            · exact .inr (.inr (.inl ⟨m, rfl, h⟩))
          · rintro ⟨x1, x2, xa, xb, xs, xt, xn, xr, xi, e1, e2, e3, e4, h⟩
            cases e1
            rw [hlen, hadj] at e2
            cases e2
            rw [hl] at e3
            cases e3
            rw [hat] at e4
            subst e4
            rcases h with ⟨m', e, h⟩ | ⟨m', e, h⟩ | ⟨m', e, h⟩ | ⟨_, _, e, _⟩
            · cases e
              exact .inl h
            · cases e
              exact .inr (.inl h)
            · cases e
              exact .inr (.inr h)
            · cases e
        apply back
        clear back
        by_cases e1 : (m : Int) = n
        · rw [if_pos e1, ForeignLinked.forget_ub, ForeignLinked.assignLoop_ub, show min m n.toNat = n.toNat by omega]
          constructor
          · exact .inl
          · rintro (h | ⟨h, _⟩ | ⟨h, _⟩)
            · exact h
            · omega
            · omega
        · rw [if_neg e1]
          by_cases e2 : (m : Int) < n
          · rw [if_pos e2, show min m n.toNat = m by omega, Int.toNat_natCast]
            rcases hA : ForeignLinked.assignLoop m s2 it (v.items s1) with ⟨⟨s', it', f'⟩, ⟨⟩⟩ | ⟨s', e⟩ | ⟨s', ⟨⟩, e⟩ | w
            · dsimp only
              rw [eraseSome_ub (by omega)]
              have ht := ForeignLinked.assignLoop_ok.mp hA
              constructor
              · rintro (⟨h, h'⟩ | ⟨q, h, h', h''⟩)
                · exact .inr (.inl ⟨e2, it', s', f', ht, .inl ⟨h, h'⟩⟩)
                · exact .inr (.inl ⟨e2, it', s', f', ht, .inr ⟨q, h, by omega, h''⟩⟩)
              · rintro (h | ⟨_, y1, y2, y3, h, h'⟩ | ⟨h, _⟩)
                · have := ForeignLinked.assignLoop_ub.mpr h
                  rw [hA] at this
                  cases this
                · have := ForeignLinked.assignLoop_ok.mpr h
                  rw [hA] at this
                  cases this
                  rcases h' with h' | ⟨q, h', h'', h3'⟩
                  · exact .inl h'
                  · exact .inr ⟨q, h', by omega, h3'⟩
                · omega
            · refine ⟨fun h => ?_, ?_⟩
              · rw [ForeignLinked.forget_ub] at h
                cases h
              · rintro (h | ⟨_, y1, y2, y3, h, -⟩ | ⟨h, _⟩)
                · have := ForeignLinked.assignLoop_ub.mpr h
                  rw [hA] at this
                  cases this
                · have := ForeignLinked.assignLoop_ok.mpr h
                  rw [hA] at this
                  cases this
                · omega
            · exfalso
              exact ForeignLinked.assignLoop_not_pending hA
            · have hw : (ForeignLinked.forget (.ub w) = .ub u) ↔ ForeignLinked.assignLoop m s2 it (v.items s1) = .ub u := by
                rw [hA, ForeignLinked.forget_ub]
              refine hw.trans ?_
              rw [ForeignLinked.assignLoop_ub]
              constructor
              · exact .inl
              · rintro (h | ⟨_, y1, y2, y3, h, -⟩ | ⟨h, _⟩)
                · exact h
                · have := ForeignLinked.assignLoop_ok.mpr h
                  rw [hA] at this
                  cases this
                · omega
          · rw [if_neg e2, show min m n.toNat = n.toNat by omega]
            rcases hA : ForeignLinked.assignLoop n.toNat s2 it (v.items s1) with ⟨⟨s', it', f'⟩, ⟨⟩⟩ | ⟨s', e⟩ | ⟨s', ⟨⟩, e⟩ | w
            · dsimp only
              have ht := ForeignLinked.assignLoop_ok.mp hA
              rw [ForeignLinked.insertLoop_ub]
              constructor
              · rintro ⟨hu, j, x, g, y, k, hj, h, h'⟩
                exact .inr (.inr ⟨by omega, it', s', f', j, x, g, y, k, ht, by omega, h, h', hu⟩)
              · rintro (h | ⟨h, _⟩ | ⟨_, y1, y2, y3, j, x, g, y, k, hx, hj, h, h', hu⟩)
                · have := ForeignLinked.assignLoop_ub.mpr h
                  rw [hA] at this
                  cases this
                · omega
                · have := ForeignLinked.assignLoop_ok.mpr hx
                  rw [hA] at this
                  cases this
                  exact ⟨hu, j, x, g, y, k, by omega, h, h'⟩
            · refine ⟨fun h => ?_, ?_⟩
              · rw [ForeignLinked.forget_ub] at h
                cases h
              · rintro (h | ⟨h, _⟩ | ⟨_, y1, y2, y3, j, x, g, y, k, hx, _⟩)
                · have := ForeignLinked.assignLoop_ub.mpr h
                  rw [hA] at this
                  cases this
                · omega
                · have := ForeignLinked.assignLoop_ok.mpr hx
                  rw [hA] at this
                  cases this
            · exfalso
              exact ForeignLinked.assignLoop_not_pending hA
            · have hw : (ForeignLinked.forget (.ub w) = .ub u) ↔
                  ForeignLinked.assignLoop n.toNat s2 it (v.items s1) = .ub u := by
                rw [hA, ForeignLinked.forget_ub]
              refine hw.trans ?_
              rw [ForeignLinked.assignLoop_ub]
              constructor
              · exact .inl
              · rintro (h | ⟨h, _⟩ | ⟨_, y1, y2, y3, j, x, g, y, k, hx, _⟩)
                · exact h
                · omega
                · have := ForeignLinked.assignLoop_ok.mpr hx
                  rw [hA] at this
                  cases this
    · have hx : ∀ (start n m : Int) p s' f, ForeignLinked.assign start c n m p s' f ≠ .ub u := by
        intros
        simp [assign, hc]
      constructor
      · intro h
        rcases hl : v.len s1 with ⟨s2, _ | m⟩
        · rw [hl] at h
          exact absurd h (hx _ _ _ _ _ _)
        · rw [hl] at h
          exact absurd h (hx _ _ _ _ _ _)
      · rintro ⟨x1, x2, xa, xb, xs, xt, xn, xr, xi, e1, -⟩
        cases e1
        exact absurd rfl hc

/-! ## The hypotheses can be met -/

private def three : S := ⟨[(0, 1), (1, 2), (2, 3)], 3, 0⟩

/-- The conversion of the second item, which is equal, removes the second node. -/
example : ForeignLinked.compare .eq three ⟨fun s => (s, .ok 3), fun _ => .item id (.of 1) fun _ =>
    .item id ⟨fun s => (s.erase 1, .ok 2)⟩ fun _ => .done id⟩ = .ub .useAfterFree :=
  (C55_linked_eq_exact three _ _).mpr ⟨three, 3, rfl, rfl, 1, some 1, three, _, _, _, by decide,
    .next rfl (by decide : Foreign.taken 32 (.ok 1) = some 1) rfl .here,
    .inr ⟨1, rfl, rfl, .inr ⟨2, some 2, rfl, (by decide : Foreign.taken 32 (.ok 2) = some 2), rfl⟩⟩⟩

/-- It removes the last node: the walk ends too early and reads behind the last node. -/
example : ForeignLinked.compare .le three ⟨fun s => (s, .ok 3), fun _ => .item id (.of 1) fun _ =>
    .item id ⟨fun s => (s.erase 2, .ok 2)⟩ fun _ => .item id (.of 3) fun _ => .done id⟩ = .ub .outOfBounds := by
  rfl
example : ForeignLinked.compare .ne three ⟨fun s => (s, .ok 3), fun _ => .item id (.of 1) fun _ => .done id⟩ =
    .ub .nullDeref :=
  (C55_linked_ne_exact three _ _).mpr ⟨three, 3, rfl, rfl, .inr ⟨rfl, 1, some 1, three, _, by decide,
    .next rfl (by decide : Foreign.taken 32 (.ok 1) = some 1) rfl .here, .inl ⟨id, rfl⟩⟩⟩

/-- `l[1:3] = v` for one item whose conversion removes the last node: no node is left where one is to be erased. -/
example : ForeignLinked.setSlice three (.of (some 1) (some 3) none)
    ⟨fun s => (s, .ok 1), fun _ => .item id ⟨fun s => (s.erase 2, .ok 5)⟩ fun _ => .done id⟩ = .ub .badIterator :=
  (C55_linked_slice_assignment_exact three _ _ _).mpr ⟨three, three, 1, 3, 1, 3, 2, .ok 1, some 1, rfl, by decide, rfl, rfl,
    .inr (.inl ⟨1, rfl, by decide, none, _, _,
      .next (rfl : Foreign.look _ 1 = some (2, none)) (by decide : Foreign.taken 32 (.ok 5) = some 5) .here,
      .inr ⟨0, rfl, by decide, rfl⟩⟩)⟩

/-- `l[2:3] = v` where `__len__` raises. -/
example : ForeignLinked.setSlice three (.of (some 2) (some 3) none)
    ⟨fun s => (s, .error (.user 1)), fun _ => .done id⟩ = .ub .badIterator :=
  (C55_linked_slice_assignment_exact three _ _ _).mpr ⟨three, three, 2, 3, 2, 3, 1, .error (.user 1), some 2, rfl, by decide,
    rfl, rfl, .inr (.inr (.inr ⟨.user 1, 1, rfl, rfl, by decide, rfl⟩))⟩

end Verif.Props
