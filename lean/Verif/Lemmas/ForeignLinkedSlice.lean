import Verif.Lemmas.ForeignLinkedExact

/-! # When slice assignments of a linked list use a node that is gone (for C55) -/

namespace Verif.ForeignLinked

open Verif.LinkedList (S LLOut boolOut)
open Verif.Foreign (conv taken look put putBefore remaining LStores LInserts LStoresOutside)

theorem assign_put {s : S} {id p : Nat} {v : Int} (h : place s (some id) = .ok p) :
    s.assign p v = { s with nodes := put s.nodes id v } := by
  obtain ⟨ns, fr, mc⟩ := s
  simp only [place, LState.ids] at h
  simp only [LState.assign, LState.mk.injEq, and_true]
  induction ns generalizing p with
  | nil => cases h
  | cons n ns ih =>
    obtain ⟨i, a⟩ := n
    by_cases hi : i = id
    · subst hi
      simp only [List.map_cons, List.idxOf?_cons, beq_self_eq_true, if_true] at h
      cases h
      simp [put]
    · have hb : (i == id) = false := beq_eq_false_iff_ne.mpr hi
      simp only [List.map_cons, List.idxOf?_cons, hb, Bool.false_eq_true, if_false] at h
      cases hx : List.idxOf? id (List.map (fun x => x.1) ns) with
      | none =>
        rw [hx] at h
        cases h
      | some q =>
        rw [hx] at h
        cases h
        rw [hx] at ih
        simp [put, hi, ih rfl]

theorem look_put {ns : List (Nat × Int)} {id : Nat} {v b : Int} {m : Option Nat} (h : look ns id = some (b, m)) :
    look (put ns id v) id = some (v, m) := by
  induction ns with
  | nil => cases h
  | cons n ns ih =>
    obtain ⟨i, a⟩ := n
    by_cases hi : i = id
    · subst hi
      simp only [look, if_true] at h
      cases h
      simp [put, look]
    · simp only [look, if_neg hi] at h
      simp only [put, if_neg hi, look]
      exact ih h

/-- Writing to a node and going on. -/
theorem write_look {s : S} {id : Nat} {v : Int} :
    (look s.nodes id = none ∧ write s (some id) v = .error .useAfterFree) ∨
    ∃ b m, look s.nodes id = some (b, m) ∧ write s (some id) v = .ok { s with nodes := put s.nodes id v } ∧
      succ { s with nodes := put s.nodes id v } (some id) = .ok m := by
  rcases place_look (s := s) (id := id) with ⟨h1, h2⟩ | ⟨p, a, m, h1, h2, h3, h4, h5⟩
  · exact .inl ⟨h1, by simp only [write, h2]⟩
  · refine .inr ⟨a, m, h1, by simp only [write, h2, if_pos h4, assign_put h2], ?_⟩
    rw [succ_look]
    simp only [look_put h1]

theorem write_end {s : S} {v : Int} : write s none v = .error .outOfBounds := by
  simp [write, place]

theorem stores_zero {it : Option Nat} {s : S} {f : Feed} {u : UB} : ¬ LStoresOutside 0 it s f u := by
  rintro ⟨c, _, _, _, _, _, hc, _⟩
  omega

theorem stores_done {n : Nat} {it : Option Nat} {s : S} {g : S → S} {u : UB} : ¬ LStoresOutside n it s (.done g) u := by
  rintro ⟨c, _, _, _, _, _, hc, h, _⟩
  cases h

theorem stores_fail {n : Nat} {it : Option Nat} {s : S} {g : S → S} {e : Exc} {u : UB} :
    ¬ LStoresOutside n it s (.fail g e) u := by
  rintro ⟨c, _, _, _, _, _, hc, h, _⟩
  cases h

theorem stores_item {n : Nat} {it : Option Nat} {s : S} {g : S → S} {x : Live} {k : S → Feed} {u : UB} :
    LStoresOutside (n + 1) it s (.item g x k) u ↔
      (it = none ∧ u = .outOfBounds ∨ ∃ id, it = some id ∧ look (x.run (g s)).1.nodes id = none ∧ u = .useAfterFree) ∨
      ∃ id b it1 v, it = some id ∧ look (x.run (g s)).1.nodes id = some (b, it1) ∧ taken 32 (x.run (g s)).2 = some v ∧
        LStoresOutside n it1 { (x.run (g s)).1 with nodes := put (x.run (g s)).1.nodes id v } (k s) u := by
  constructor
  · rintro ⟨c, it', s', g', x', k', hc, ht, hw⟩
    cases ht with
    | here => exact .inl hw
    | next h1 h2 h3 => exact .inr ⟨_, _, _, _, rfl, h1, h2, _, _, _, _, _, _, by omega, h3, hw⟩
  · rintro (h | ⟨id, b, it1, v, rfl, h1, h2, c, it', s', g', x', k', hc, h3, hw⟩)
    · exact ⟨0, it, s, g, x, k, by omega, .here, h⟩
    · exact ⟨c + 1, it', s', g', x', k', by omega, .next h1 h2 h3, hw⟩

theorem assignLoop_ub {u : UB} : ∀ {n : Nat} {s : S} {it : Iter} {f : Feed},
    assignLoop n s it f = .ub u ↔ LStoresOutside n it s f u := by
  intro n
  induction n with
  | zero =>
    intro s it f
    unfold assignLoop
    exact ⟨fun h => (nomatch h), fun h => absurd h stores_zero⟩
  | succ n ih =>
    intro s it f
    cases f with
    | done g =>
      unfold assignLoop
      exact ⟨fun h => (nomatch h), fun h => absurd h stores_done⟩
    | fail g e =>
      unfold assignLoop
      exact ⟨fun h => (nomatch h), fun h => absurd h stores_fail⟩
    | item g x k =>
      rw [stores_item]
      unfold assignLoop
      obtain ⟨c1, c2, c3⟩ := conv_taken x (g s)
      rcases hc : conv (toElem .i32) x (g s) with ⟨s2, w, e⟩
      rw [hc] at c1 c2 c3
      dsimp only at c1 c2 c3 ⊢
      rw [c1]
      cases it with
      | none =>
        rw [write_end]
        simp [eq_comm]
      | some id =>
        rcases write_look (s := (x.run (g s)).1) (id := id) (v := w) with ⟨h1, h2⟩ | ⟨b, m, h1, h2, h3⟩
        · rw [h2]
          simp [h1, eq_comm]
        · rw [h2]
          dsimp only
          cases ht : taken 32 (x.run (g s)).2 with
          | none =>
            obtain ⟨e', he⟩ := c3 ht
            cases he
            refine ⟨fun h => (nomatch h), ?_⟩
            rintro ((⟨h, -⟩ | ⟨id', h, h', -⟩) | ⟨id', b', it1, v, h, h', h'', -⟩)
            · cases h
            · cases h
              rw [h1] at h'
              cases h'
            · cases h''
          | some v =>
            have he := c2 v ht
            obtain ⟨hwv, rfl⟩ := Prod.mk.inj he
            subst hwv
            dsimp only
            rw [h3]
            dsimp only
            rw [ih]
            constructor
            · intro h
              exact .inr ⟨id, b, m, w, rfl, h1, rfl, h⟩
            · rintro ((⟨h, -⟩ | ⟨id', h, h', -⟩) | ⟨id', b', it1, v, h, h', h'', h4⟩)
              · cases h
              · cases h
                rw [h1] at h'
                cases h'
              · cases h
                rw [h1] at h'
                cases h'
                cases h''
                exact h4

theorem assignLoop_ok : ∀ {n : Nat} {s : S} {it : Iter} {f : Feed} {s' : S} {it' : Iter} {f' : Feed},
    assignLoop n s it f = .ok (s', it', f') () ↔ LStores it s f n it' s' f' := by
  intro n
  induction n with
  | zero =>
    intro s it f s' it' f'
    unfold assignLoop
    constructor
    · intro h
      cases h
      exact .here
    · intro h
      cases h
      rfl
  | succ n ih =>
    intro s it f s' it' f'
    cases f with
    | done g =>
      unfold assignLoop
      refine ⟨fun h => (nomatch h), fun h => ?_⟩
      cases h
    | fail g e =>
      unfold assignLoop
      refine ⟨fun h => (nomatch h), fun h => ?_⟩
      cases h
    | item g x k =>
      unfold assignLoop
      obtain ⟨c1, c2, c3⟩ := conv_taken x (g s)
      rcases hc : conv (toElem .i32) x (g s) with ⟨s2, w, e⟩
      rw [hc] at c1 c2 c3
      dsimp only at c1 c2 c3 ⊢
      rw [c1]
      cases it with
      | none =>
        rw [write_end]
        refine ⟨fun h => (nomatch h), fun h => ?_⟩
        cases h
      | some id =>
        rcases write_look (s := (x.run (g s)).1) (id := id) (v := w) with ⟨h1, h2⟩ | ⟨b, m, h1, h2, h3⟩
        · rw [h2]
          refine ⟨fun h => (nomatch h), fun h => ?_⟩
          cases h with
          | next h4 =>
            rw [h1] at h4
            cases h4
        · rw [h2]
          dsimp only
          cases ht : taken 32 (x.run (g s)).2 with
          | none =>
            obtain ⟨e', he⟩ := c3 ht
            cases he
            refine ⟨fun h => (nomatch h), fun h => ?_⟩
            cases h with
            | next _ h4 =>
              rw [ht] at h4
              cases h4
          | some v =>
            have he := c2 v ht
            obtain ⟨hwv, rfl⟩ := Prod.mk.inj he
            subst hwv
            dsimp only
            rw [h3]
            dsimp only
            rw [ih]
            constructor
            · intro h
              exact .next h1 ht h
            · intro h
              cases h with
              | next h4 h5 h6 =>
                rw [h1] at h4
                rw [ht] at h5
                cases h4
                cases h5
                exact h6

theorem assignLoop_not_pending {r : Unit} {e : Exc} : ∀ {n : Nat} {s : S} {it : Iter} {f : Feed} {t : S × Iter × Feed},
    assignLoop n s it f ≠ .pending t r e := by
  intro n
  induction n with
  | zero =>
    intro s it f t
    unfold assignLoop
    simp
  | succ n ih =>
    intro s it f t
    cases f with
    | done g => simp [assignLoop]
    | fail g e => simp [assignLoop]
    | item g x k =>
      unfold assignLoop
      rcases conv (toElem .i32) x (g s) with ⟨s2, w, _ | e'⟩
      · dsimp only
        cases write s2 it w with
        | error u => simp
        | ok s3 =>
          dsimp only
          cases succ s3 it with
          | error u => simp
          | ok it' => exact ih
      · dsimp only
        cases write s2 it w <;> simp

theorem place_remaining {s : S} {it : Iter} :
    (remaining s.nodes it = none ∧ place s it = .error .useAfterFree) ∨
    ∃ p r, remaining s.nodes it = some r ∧ place s it = .ok p ∧ p + r = s.size ∧
      ∀ v, s.insert p v = ⟨putBefore s.fresh v s.nodes it, s.fresh + 1, s.modCount⟩ := by
  obtain ⟨ns, fr, mc⟩ := s
  cases it with
  | none =>
    refine .inr ⟨ns.length, 0, by cases ns <;> rfl, rfl, rfl, ?_⟩
    intro v
    have : ∀ l : List (Nat × Int), putBefore fr v l none = l ++ [(fr, v)] := by
      intro l
      induction l with
      | nil => rfl
      | cons n l ih =>
        obtain ⟨i, a⟩ := n
        simp [putBefore, ih]
    simp [LState.insert, this]
  | some id =>
    simp only [place, LState.ids, LState.size, LState.insert, LState.mk.injEq, and_true]
    induction ns with
    | nil => exact .inl ⟨rfl, rfl⟩
    | cons n ns ih =>
      obtain ⟨i, a⟩ := n
      by_cases hi : i = id
      · subst hi
        exact .inr ⟨0, ns.length + 1, by simp [remaining], by simp [List.idxOf?_cons], by simp, by simp [putBefore]⟩
      · have hb : (i == id) = false := beq_eq_false_iff_ne.mpr hi
        simp only [List.map_cons, List.idxOf?_cons, hb, Bool.false_eq_true, if_false, remaining, if_neg hi]
        rcases ih with ⟨h1, h2⟩ | ⟨p, r, h1, h2, h3, h4⟩
        · refine .inl ⟨h1, ?_⟩
          cases hx : List.idxOf? id (List.map (fun x => x.1) ns) with
          | none => rfl
          | some q =>
            rw [hx] at h2
            cases h2
        · refine .inr ⟨p + 1, r, h1, ?_, by simp only [List.length_cons]; omega, ?_⟩
          · cases hx : List.idxOf? id (List.map (fun x => x.1) ns) with
            | none =>
              rw [hx] at h2
              cases h2
            | some q =>
              rw [hx] at h2
              cases h2
              rfl
          · intro v
            simp only [List.take_succ_cons, List.drop_succ_cons, List.cons_append, h4 v, putBefore, Option.some.injEq, if_neg hi,
              true_and]

theorem insertLoop_ub {it : Iter} {u : UB} : ∀ {n : Nat} {s : S} {f : Feed}, insertLoop n s it f = .ub u ↔ u = .useAfterFree ∧
    ∃ c s' g x k, c < n ∧ LInserts it s f c s' (.item g x k) ∧ remaining (x.run (g s')).1.nodes it = none := by
  intro n
  induction n with
  | zero =>
    intro s f
    unfold insertLoop
    refine ⟨fun h => (nomatch h), ?_⟩
    rintro ⟨-, c, _, _, _, _, hc, _⟩
    omega
  | succ n ih =>
    intro s f
    cases f with
    | done g =>
      unfold insertLoop
      refine ⟨fun h => (nomatch h), ?_⟩
      rintro ⟨-, c, _, _, _, _, hc, h, _⟩
      cases h
    | fail g e =>
      unfold insertLoop
      refine ⟨fun h => (nomatch h), ?_⟩
      rintro ⟨-, c, _, _, _, _, hc, h, _⟩
      cases h
    | item g x k =>
      unfold insertLoop
      obtain ⟨c1, c2, c3⟩ := conv_taken x (g s)
      rcases hc : conv (toElem .i32) x (g s) with ⟨s2, w, e⟩
      rw [hc] at c1 c2 c3
      dsimp only at c1 c2 c3 ⊢
      rw [c1]
      rcases place_remaining (s := (x.run (g s)).1) (it := it) with ⟨h1, h2⟩ | ⟨p, r, h1, h2, -, h4⟩
      · rw [h2]
        constructor
        · intro h
          cases h
          exact ⟨rfl, 0, s, g, x, k, by omega, .here, h1⟩
        · rintro ⟨rfl, -⟩
          rfl
      · rw [h2]
        dsimp only
        cases ht : taken 32 (x.run (g s)).2 with
        | none =>
          obtain ⟨e', he⟩ := c3 ht
          cases he
          refine ⟨fun h => (nomatch h), ?_⟩
          rintro ⟨-, c, s', g', x', k', hc, h, h'⟩
          cases h with
          | here =>
            rw [h1] at h'
            cases h'
          | next _ h5 =>
            rw [ht] at h5
            cases h5
        | some v =>
          have he := c2 v ht
          obtain ⟨hwv, rfl⟩ := Prod.mk.inj he
          subst hwv
          dsimp only
          rw [ih, h4 w]
          constructor
          · rintro ⟨hu, c, s', g', x', k', hc, h, h'⟩
            exact ⟨hu, c + 1, s', g', x', k', by omega, .next (by rw [h1]; rfl) ht h, h'⟩
          · rintro ⟨hu, c, s', g', x', k', hc, h, h'⟩
            cases h with
            | here =>
              rw [h1] at h'
              cases h'
            | next _ h5 h6 =>
              rw [ht] at h5
              cases h5
              exact ⟨hu, _, s', g', x', k', by omega, h6, h'⟩

theorem eraseSome_ub {s : S} {it : Iter} {k : Nat} {pend : Option Exc} {u : UB} (hk : 0 < k) :
    eraseSome s it k pend = .ub u ↔ (remaining s.nodes it = none ∧ u = .useAfterFree) ∨
      ∃ r, remaining s.nodes it = some r ∧ r < k ∧ u = .badIterator := by
  have walk : ∀ (k p : Nat), (p + k ≤ s.size ∧ walkFwd s.size k p = .ok (p + k)) ∨
      (s.size < p + k ∧ (0 < k → walkFwd s.size k p = .error .badIterator)) := by
    intro k
    induction k with
    | zero =>
      intro p
      by_cases h : p ≤ s.size
      · exact .inl ⟨h, rfl⟩
      · exact .inr ⟨by omega, by omega⟩
    | succ k ih =>
      intro p
      unfold walkFwd
      by_cases h : p < s.size
      · rw [if_pos h]
        rcases ih (p + 1) with ⟨h1, h2⟩ | ⟨h1, h2⟩
        · exact .inl ⟨by omega, by rw [h2]; congr 1; omega⟩
        · refine .inr ⟨by omega, fun _ => h2 ?_⟩
          omega
      · rw [if_neg h]
        exact .inr ⟨by omega, fun _ => rfl⟩
  unfold eraseSome
  rcases place_remaining (s := s) (it := it) with ⟨h1, h2⟩ | ⟨p, r, h1, h2, h3, -⟩
  · rw [h2]
    simp [h1, eq_comm]
  · rw [h2]
    dsimp only
    rcases walk k p with ⟨h4, h5⟩ | ⟨h4, h5⟩
    · rw [h5]
      cases pend with
      | none =>
        refine ⟨fun h => (nomatch h), ?_⟩
        rintro (⟨h, -⟩ | ⟨r', h, h', -⟩)
        · rw [h1] at h
          cases h
        · rw [h1] at h
          cases h
          omega
      | some e =>
        refine ⟨fun h => (nomatch h), ?_⟩
        rintro (⟨h, -⟩ | ⟨r', h, h', -⟩)
        · rw [h1] at h
          cases h
        · rw [h1] at h
          cases h
          omega
    · rw [h5 hk]
      constructor
      · intro h
        cases h
        exact .inr ⟨r, h1, by omega, rfl⟩
      · rintro (⟨h, -⟩ | ⟨r', h, h', rfl⟩)
        · rw [h1] at h
          cases h
        · rfl

theorem forget_ub {o : Out (S × Iter × Feed) Unit} {u : UB} : forget o = .ub u ↔ o = .ub u := by
  rcases o with ⟨⟨s, f⟩, _⟩ | ⟨⟨s, f⟩, e⟩ | ⟨⟨s, f⟩, _, e⟩ | w <;> simp [forget]

end Verif.ForeignLinked
