import Verif.Lemmas.ForeignExact
import Verif.Lemmas.ForeignLinked

/-! # When comparisons of a linked list use a node that is gone (for C55) -/

namespace Verif.ForeignLinked

open Verif.LinkedList (S LLOut boolOut)
open Verif.Foreign (conv taken look LThrough sameValue sameOrder)

theorem place_look {s : S} {id : Nat} :
    (look s.nodes id = none ∧ place s (some id) = .error .useAfterFree) ∨
    ∃ p a m, look s.nodes id = some (a, m) ∧ place s (some id) = .ok p ∧ s.vals[p]? = some a ∧ p < s.size ∧
      iterAt s (p + 1) = m := by
  obtain ⟨ns, fr, mc⟩ := s
  simp only [place, LState.ids, LState.vals, LState.size, iterAt]
  induction ns with
  | nil => exact .inl ⟨rfl, rfl⟩
  | cons n ns ih =>
    obtain ⟨i, a⟩ := n
    by_cases hi : i = id
    · subst hi
      refine .inr ⟨0, a, ns.head?.map Prod.fst, by simp [look], by simp [List.idxOf?_cons], by simp, by simp, ?_⟩
      cases ns <;> simp
    · have hl : look ((i, a) :: ns) id = look ns id := by simp [look, hi]
      have hb : (i == id) = false := beq_eq_false_iff_ne.mpr hi
      rw [hl]
      simp only [List.map_cons, List.idxOf?_cons, hb, Bool.false_eq_true, if_false]
      rcases ih with ⟨h1, h2⟩ | ⟨p, b, m, h1, h2, h3, h4, h5⟩
      · refine .inl ⟨h1, ?_⟩
        cases hx : List.idxOf? id (List.map (fun x => x.1) ns) with
        | none => rfl
        | some q =>
          rw [hx] at h2
          cases h2
      · refine .inr ⟨p + 1, b, m, h1, ?_, h3, by simp only [List.length_cons]; omega, h5⟩
        cases hx : List.idxOf? id (List.map (fun x => x.1) ns) with
        | none =>
          rw [hx] at h2
          cases h2
        | some q =>
          rw [hx] at h2
          cases h2
          rfl

theorem deref_look {s : S} {id : Nat} :
    deref s (some id) = match look s.nodes id with | none => .error .useAfterFree | some (a, _) => .ok a := by
  unfold deref
  rcases place_look (s := s) (id := id) with ⟨h1, h2⟩ | ⟨p, a, m, h1, h2, h3, -, -⟩
  · simp only [h1, h2]
  · simp only [h1, h2, h3]

theorem succ_look {s : S} {id : Nat} :
    succ s (some id) = match look s.nodes id with | none => .error .useAfterFree | some (_, m) => .ok m := by
  unfold succ
  rcases place_look (s := s) (id := id) with ⟨h1, h2⟩ | ⟨p, a, m, h1, h2, h3, h4, h5⟩
  · simp only [h1, h2]
  · simp only [h1, h2, if_pos h4, h5]

theorem deref_end {s : S} : deref s none = .error .outOfBounds := by
  have : s.vals[s.size]? = none := by simp [LState.vals, LState.size]
  simp only [deref, place, this]

theorem conv_taken (x : Live) (l : S) :
    (conv (toElem .i32) x l).1 = (x.run l).1 ∧
    (∀ v, taken 32 (x.run l).2 = some v → (conv (toElem .i32) x l).2 = (v, none)) ∧
    (taken 32 (x.run l).2 = none → ∃ e, (conv (toElem .i32) x l).2 = (-1, some e)) := by
  unfold conv
  rcases hx : x.run l with ⟨l', e | v⟩
  · exact ⟨rfl, by simp [taken], fun _ => ⟨e, rfl⟩⟩
  · refine ⟨rfl, ?_, ?_⟩
    · intro w hw
      simp only [taken] at hw
      split_ifs at hw with hf
      have hf' : FitsS 64 v := hf
      cases hw
      simp only [toElem, asLong, if_pos hf']
      rfl
    · intro hw
      simp only [taken] at hw
      split_ifs at hw with hf
      have hf' : ¬ FitsS 64 v := hf
      refine ⟨.overflowError, ?_⟩
      simp only [toElem, asLong, if_neg hf']
      rfl

/-- What goes wrong at a moment. -/
def Wrong (same : Int → Except Exc Int → Prop) (it : Option Nat) (s : S) (g : S → S) (x : Live) (u : UB) : Prop :=
  it = none ∧ u = .outOfBounds ∨
   (∃ id, it = some id ∧ u = .useAfterFree ∧ (look (g s).nodes id = none ∨
     ∃ a m, look (g s).nodes id = some (a, m) ∧ same a (x.run (g s)).2 ∧ look (x.run (g s)).1.nodes id = none))

/-- Some moment before `n` more items at which it goes wrong. -/
def Stray (same : Int → Except Exc Int → Prop) (n : Nat) (it : Option Nat) (s : S) (f : Feed) (u : UB) : Prop :=
  ∃ c it' s' g x k, c < n ∧ LThrough same it s f c it' s' (.item g x k) ∧ Wrong same it' s' g x u

theorem stray_item {same : Int → Except Exc Int → Prop} {n : Nat} {it : Option Nat} {s : S} {g : S → S} {x : Live}
    {k : S → Feed} {u : UB} : Stray same (n + 1) it s (.item g x k) u ↔ Wrong same it s g x u ∨
      ∃ id a m b it1, it = some id ∧ look (g s).nodes id = some (a, m) ∧ same a (x.run (g s)).2 ∧
        look (x.run (g s)).1.nodes id = some (b, it1) ∧ Stray same n it1 (x.run (g s)).1 (k s) u := by
  constructor
  · rintro ⟨c, it', s', g', x', k', hc, ht, hw⟩
    cases ht with
    | here => exact .inl hw
    | next h1 h2 h3 h4 => exact .inr ⟨_, _, _, _, _, rfl, h1, h2, h3, _, _, _, _, _, _, by omega, h4, hw⟩
  · rintro (h | ⟨id, a, m, b, it1, rfl, h1, h2, h3, c, it', s', g', x', k', hc, h4, hw⟩)
    · exact ⟨0, it, s, g, x, k, by omega, .here, h⟩
    · exact ⟨c + 1, it', s', g', x', k', by omega, .next h1 h2 h3 h4, hw⟩

theorem stray_zero {same : Int → Except Exc Int → Prop} {it : Option Nat} {s : S} {f : Feed} {u : UB} :
    ¬ Stray same 0 it s f u := by
  rintro ⟨c, _, _, _, _, _, hc, _⟩
  omega

theorem stray_done {same : Int → Except Exc Int → Prop} {n : Nat} {it : Option Nat} {s : S} {g : S → S} {u : UB} :
    ¬ Stray same n it s (.done g) u := by
  rintro ⟨c, _, _, _, _, _, hc, h, _⟩
  cases h

theorem stray_fail {same : Int → Except Exc Int → Prop} {n : Nat} {it : Option Nat} {s : S} {g : S → S} {e : Exc} {u : UB} :
    ¬ Stray same n it s (.fail g e) u := by
  rintro ⟨c, _, _, _, _, _, hc, h, _⟩
  cases h

theorem eqLoop_ub {u : UB} : ∀ {n : Nat} {s : S} {it : Iter} {f : Feed}, eqLoop n s it f = .ub u ↔ Stray sameValue n it s f u := by
  intro n
  induction n with
  | zero =>
    intro s it f
    unfold eqLoop
    exact ⟨fun h => (nomatch h), fun h => absurd h stray_zero⟩
  | succ n ih =>
    intro s it f
    cases f with
    | done g =>
      unfold eqLoop
      exact ⟨fun h => (nomatch h), fun h => absurd h stray_done⟩
    | fail g e =>
      unfold eqLoop
      exact ⟨fun h => (nomatch h), fun h => absurd h stray_fail⟩
    | item g x k =>
      rw [stray_item]
      unfold eqLoop
      obtain ⟨c1, c2, c3⟩ := conv_taken x (g s)
      rcases hc : conv (toElem .i32) x (g s) with ⟨s2, w, e⟩
      rw [hc] at c1 c2 c3
      dsimp only at c1 c2 c3
      cases it with
      | none =>
        rw [deref_end]
        simp [Wrong, eq_comm]
      | some id =>
        rw [deref_look]
        cases h1 : look (g s).nodes id with
        | none => simp [Wrong, h1, eq_comm]
        | some am =>
          obtain ⟨a, m⟩ := am
          dsimp only
          cases ht : taken 32 (x.run (g s)).2 with
          | none =>
            obtain ⟨e', he⟩ := c3 ht
            cases he
            refine ⟨fun h => (nomatch h), ?_⟩
            rintro ((⟨h, -⟩ | ⟨id', h, -, h' | ⟨a', m', h', h'', -⟩⟩) | ⟨id', a', m', b, it1, h, h', h'', -⟩)
            · cases h
            · cases h
              rw [h1] at h'
              cases h'
            · rw [sameValue, ht] at h''
              cases h''
            · rw [sameValue, ht] at h''
              cases h''
          | some v =>
            have he := c2 v ht
            obtain ⟨hwv, rfl⟩ := Prod.mk.inj he
            subst hwv
            dsimp only
            by_cases haw : a ≠ w
            · rw [if_pos haw]
              refine ⟨fun h => (nomatch h), ?_⟩
              rintro ((⟨h, -⟩ | ⟨id', h, -, h' | ⟨a', m', h', h'', -⟩⟩) | ⟨id', a', m', b, it1, h, h', h'', -⟩)
              · cases h
              · cases h
                rw [h1] at h'
                cases h'
              · cases h
                rw [h1] at h'
                cases h'
                rw [sameValue, ht] at h''
                cases h''
                exact absurd rfl haw
              · cases h
                rw [h1] at h'
                cases h'
                rw [sameValue, ht] at h''
                cases h''
                exact absurd rfl haw
            · rw [if_neg haw]
              have haw' : a = w := by simpa using haw
              subst haw'
              rw [succ_look, c1]
              cases h2 : look (x.run (g s)).1.nodes id with
              | none =>
                dsimp only
                constructor
                · intro h
                  cases h
                  exact .inl (.inr ⟨id, rfl, rfl, .inr ⟨a, m, h1, ht, h2⟩⟩)
                · rintro ((⟨h, -⟩ | ⟨id', h, rfl, -⟩) | ⟨id', a', m', b, it1, h, h', h'', h3, -⟩)
                  · cases h
                  · rfl
                  · cases h
                    rw [h2] at h3
                    cases h3
              | some bi =>
                obtain ⟨b, it1⟩ := bi
                dsimp only
                rw [ih]
                constructor
                · intro h
                  exact .inr ⟨id, a, m, b, it1, rfl, h1, ht, h2, h⟩
                · rintro ((⟨h, -⟩ | ⟨id', h, -, h' | ⟨a', m', h', h'', h3⟩⟩) | ⟨id', a', m', b', it1', h, h', h'', h3, h4⟩)
                  · cases h
                  · cases h
                    rw [h1] at h'
                    cases h'
                  · cases h
                    rw [h2] at h3
                    cases h3
                  · cases h
                    rw [h2] at h3
                    cases h3
                    exact h4

theorem boolOut_ub {s : S} {b : Bool} {p : Option Exc} {u : UB} : boolOut s b p ≠ .ub u := by
  cases p <;> simp [boolOut]

theorem ordLoop_ub {op : CmpOp} {u : UB} : ∀ {n : Nat} {s : S} {it : Iter} {p : Option Exc} {f : Feed},
    ordLoop op n s it p f = .ub u ↔ Stray sameOrder n it s f u := by
  intro n
  induction n with
  | zero =>
    intro s it p f
    unfold ordLoop
    exact ⟨fun h => absurd h boolOut_ub, fun h => absurd h stray_zero⟩
  | succ n ih =>
    intro s it p f
    cases f with
    | done g =>
      unfold ordLoop
      exact ⟨fun h => (nomatch h), fun h => absurd h stray_done⟩
    | fail g e =>
      unfold ordLoop
      exact ⟨fun h => (nomatch h), fun h => absurd h stray_fail⟩
    | item g x k =>
      rw [stray_item]
      unfold ordLoop
      obtain ⟨c1, c2, c3⟩ := conv_taken x (g s)
      rcases hc : conv (toElem .i32) x (g s) with ⟨s2, w, e⟩
      rw [hc] at c1 c2 c3
      dsimp only at c1 c2 c3
      have hw : (taken 32 (x.run (g s)).2).getD (-1) = w := by
        cases ht : taken 32 (x.run (g s)).2 with
        | none =>
          obtain ⟨e', he⟩ := c3 ht
          cases he
          rfl
        | some v =>
          have he := c2 v ht
          obtain ⟨hwv, -⟩ := Prod.mk.inj he
          exact hwv.symm
      cases it with
      | none =>
        rw [deref_end]
        simp [Wrong, eq_comm]
      | some id =>
        rw [deref_look]
        cases h1 : look (g s).nodes id with
        | none => simp [Wrong, h1, eq_comm]
        | some am =>
          obtain ⟨a, m⟩ := am
          dsimp only
          by_cases haw : a ≠ w
          · rw [if_pos haw]
            refine ⟨fun h => absurd h boolOut_ub, ?_⟩
            rintro ((⟨h, -⟩ | ⟨id', h, -, h' | ⟨a', m', h', h'', -⟩⟩) | ⟨id', a', m', b, it1, h, h', h'', -⟩)
            · cases h
            · cases h
              rw [h1] at h'
              cases h'
            · cases h
              rw [h1] at h'
              cases h'
              exact absurd (h''.symm.trans hw) haw
            · cases h
              rw [h1] at h'
              cases h'
              exact absurd (h''.symm.trans hw) haw
          · rw [if_neg haw]
            have haw' : a = w := by simpa using haw
            subst haw'
            rw [succ_look, c1]
            cases h2 : look (x.run (g s)).1.nodes id with
            | none =>
              dsimp only
              constructor
              · intro h
                cases h
                exact .inl (.inr ⟨id, rfl, rfl, .inr ⟨a, m, h1, hw, h2⟩⟩)
              · rintro ((⟨h, -⟩ | ⟨id', h, rfl, -⟩) | ⟨id', a', m', b, it1, h, h', h'', h3, -⟩)
                · cases h
                · rfl
                · cases h
                  rw [h2] at h3
                  cases h3
            | some bi =>
              obtain ⟨b, it1⟩ := bi
              dsimp only
              rw [ih]
              constructor
              · intro h
                exact .inr ⟨id, a, m, b, it1, rfl, h1, hw, h2, h⟩
              · rintro ((⟨h, -⟩ | ⟨id', h, -, h' | ⟨a', m', h', h'', h3⟩⟩) | ⟨id', a', m', b', it1', h, h', h'', h3, h4⟩)
                · cases h
                · cases h
                  rw [h1] at h'
                  cases h'
                · cases h
                  rw [h2] at h3
                  cases h3
                · cases h
                  rw [h2] at h3
                  cases h3
                  exact h4

theorem eqLoop_exc : ∀ {n : Nat} {s : S} {it : Iter} {f : Feed}, (∃ s' e, eqLoop n s it f = .exc s' e) ↔
    ∃ c it' s' f', c < n ∧ LThrough sameValue it s f c it' s' f' ∧ ((∃ g, f' = .done g) ∨ ∃ g e, f' = .fail g e) := by
  intro n
  induction n with
  | zero =>
    intro s it f
    unfold eqLoop
    refine ⟨fun ⟨_, _, h⟩ => (nomatch h), ?_⟩
    rintro ⟨c, _, _, _, hc, _⟩
    omega
  | succ n ih =>
    intro s it f
    cases f with
    | done g =>
      unfold eqLoop
      exact ⟨fun _ => ⟨0, it, s, _, by omega, .here, .inl ⟨g, rfl⟩⟩, fun _ => ⟨_, _, rfl⟩⟩
    | fail g e =>
      unfold eqLoop
      exact ⟨fun _ => ⟨0, it, s, _, by omega, .here, .inr ⟨g, e, rfl⟩⟩, fun _ => ⟨_, _, rfl⟩⟩
    | item g x k =>
      have split : (∃ c it' s' f', c < n + 1 ∧ LThrough sameValue it s (.item g x k) c it' s' f' ∧
          ((∃ g, f' = .done g) ∨ ∃ g e, f' = .fail g e)) ↔
          ∃ id a m b it1, it = some id ∧ look (g s).nodes id = some (a, m) ∧ taken 32 (x.run (g s)).2 = some a ∧
            look (x.run (g s)).1.nodes id = some (b, it1) ∧ ∃ c it' s' f', c < n ∧
              LThrough sameValue it1 (x.run (g s)).1 (k s) c it' s' f' ∧ ((∃ g, f' = .done g) ∨ ∃ g e, f' = .fail g e) := by
        constructor
        · rintro ⟨c, it', s', f', hc, ht, hf⟩
          cases ht with
          | here => rcases hf with ⟨_, h⟩ | ⟨_, _, h⟩ <;> cases h
          | next h1 h2 h3 h4 => exact ⟨_, _, _, _, _, rfl, h1, h2, h3, _, _, _, _, by omega, h4, hf⟩
        · rintro ⟨id, a, m, b, it1, rfl, h1, h2, h3, c, it', s', f', hc, h4, hf⟩
          exact ⟨c + 1, it', s', f', by omega, .next h1 h2 h3 h4, hf⟩
      rw [split]
      unfold eqLoop
      obtain ⟨c1, c2, c3⟩ := conv_taken x (g s)
      rcases hc : conv (toElem .i32) x (g s) with ⟨s2, w, e⟩
      rw [hc] at c1 c2 c3
      dsimp only at c1 c2 c3
      cases it with
      | none =>
        rw [deref_end]
        refine ⟨fun ⟨_, _, h⟩ => (nomatch h), ?_⟩
        rintro ⟨id, a, m, b, it1, h, -⟩
        cases h
      | some id =>
        rw [deref_look]
        cases h1 : look (g s).nodes id with
        | none =>
          refine ⟨fun ⟨_, _, h⟩ => (nomatch h), ?_⟩
          rintro ⟨id', a, m, b, it1, h, h', -⟩
          cases h
          rw [h1] at h'
          cases h'
        | some am =>
          obtain ⟨a, m⟩ := am
          dsimp only
          cases ht : taken 32 (x.run (g s)).2 with
          | none =>
            obtain ⟨e', he⟩ := c3 ht
            cases he
            refine ⟨fun ⟨_, _, h⟩ => (nomatch h), ?_⟩
            rintro ⟨id', a', m', b, it1, h, h', h'', -⟩
            cases h''
          | some v =>
            have he := c2 v ht
            obtain ⟨hwv, rfl⟩ := Prod.mk.inj he
            subst hwv
            dsimp only
            by_cases haw : a ≠ w
            · rw [if_pos haw]
              refine ⟨fun ⟨_, _, h⟩ => (nomatch h), ?_⟩
              rintro ⟨id', a', m', b, it1, h, h', h'', -⟩
              cases h
              rw [h1] at h'
              cases h'
              cases h''
              exact absurd rfl haw
            · rw [if_neg haw]
              have haw' : a = w := by simpa using haw
              subst haw'
              rw [succ_look, c1]
              cases h2 : look (x.run (g s)).1.nodes id with
              | none =>
                dsimp only
                refine ⟨fun ⟨_, _, h⟩ => (nomatch h), ?_⟩
                rintro ⟨id', a', m', b, it1, h, h', h'', h3, -⟩
                cases h
                rw [h2] at h3
                cases h3
              | some bi =>
                obtain ⟨b, it1⟩ := bi
                dsimp only
                rw [ih]
                constructor
                · intro h
                  exact ⟨id, a, m, b, it1, rfl, h1, rfl, h2, h⟩
                · rintro ⟨id', a', m', b', it1', h, h', h'', h3, h4⟩
                  cases h
                  rw [h2] at h3
                  cases h3
                  exact h4

end Verif.ForeignLinked
