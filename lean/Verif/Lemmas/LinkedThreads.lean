import Verif.Lemmas.Nodes
import Verif.Spec.LinkedThreads

/-! Helper lemmas for C66, linked lists. -/

namespace Verif.LinkedThreads

open Verif.Nodes

variable {α : Type}

/-! ### One access -/

/-- Values of nodes. -/
abbrev vals (xs : List (Nat × α)) : List α := xs.map (·.2)

/-- `std::reverse` in progress on the nodes `xs`, to end with `tgt` after at most `n` accesses. -/
inductive Doing (h : Nat) : List (Nat × α) → List α → Turn α → Nat → Prop
  | begin {xs : List (Nat × α)} {tgt : List α} (ht : tgt = (vals xs).reverse) :
      Doing h xs tgt ⟨h, h, h, .begin⟩ (6 * xs.length + 1)
  | back {l m r : List (Nat × α)} {x : Nat × α} {tgt : List α} (ht : tgt = vals l ++ ((vals (x :: m)).reverse ++ vals r)) :
      Doing h (l ++ (x :: m ++ r)) tgt ⟨h, x.1, (r.map (·.1)).headD h, .back⟩ (6 * (m.length + 1))
  | load {l m r : List (Nat × α)} {x y : Nat × α} {tgt : List α}
      (ht : tgt = vals l ++ y.2 :: ((vals m).reverse ++ x.2 :: vals r)) :
      Doing h (l ++ x :: (m ++ y :: r)) tgt ⟨h, x.1, y.1, .load⟩ (6 * m.length + 11)
  | loadLast {l m r : List (Nat × α)} {x y : Nat × α} {tgt : List α}
      (ht : tgt = vals l ++ y.2 :: ((vals m).reverse ++ x.2 :: vals r)) :
      Doing h (l ++ x :: (m ++ y :: r)) tgt ⟨h, x.1, y.1, .loadLast x.2⟩ (6 * m.length + 10)
  | store {l m r : List (Nat × α)} {x y : Nat × α} {tgt : List α}
      (ht : tgt = vals l ++ y.2 :: ((vals m).reverse ++ x.2 :: vals r)) :
      Doing h (l ++ x :: (m ++ y :: r)) tgt ⟨h, x.1, y.1, .store x.2 y.2⟩ (6 * m.length + 9)
  | storeLast {l m r : List (Nat × α)} {x y : Nat × α} {v : α} {tgt : List α}
      (ht : tgt = vals l ++ x.2 :: ((vals m).reverse ++ v :: vals r)) :
      Doing h (l ++ x :: (m ++ y :: r)) tgt ⟨h, x.1, y.1, .storeLast v⟩ (6 * m.length + 8)
  | ahead {l m r : List (Nat × α)} {x y : Nat × α} {tgt : List α}
      (ht : tgt = vals l ++ x.2 :: ((vals m).reverse ++ y.2 :: vals r)) :
      Doing h (l ++ x :: (m ++ y :: r)) tgt ⟨h, x.1, y.1, .ahead⟩ (6 * m.length + 7)
  | over {xs : List (Nat × α)} {tgt : List α} {f la : Nat} (ht : tgt = vals xs) : Doing h xs tgt ⟨h, f, la, .over⟩ 0

theorem doing_zero {h : Nat} {xs : List (Nat × α)} {tgt : List α} {r : Turn α} {n : Nat} (hd : Doing h xs tgt r n)
    (hp : n = 0) : r.phase = .over := by
  cases hd <;> first | rfl | omega

theorem doing_over {h : Nat} {xs : List (Nat × α)} {tgt : List α} {r : Turn α} {n : Nat} (hd : Doing h xs tgt r n)
    (hp : r.phase = .over) : tgt = vals xs := by
  cases hd <;> first | assumption | cases hp

theorem access_turns {w : World α} {h : Nat} {xs : List (Nat × α)} {tgt : List α} {r : Turn α} {n : Nat} (hr : Rep w h xs)
    (hd : Doing h xs tgt r n) (hp : r.phase ≠ .over) :
    ∃ r' w' xs' n', r.access w = .ok (r', w') ∧ Turns h w xs w' xs' ∧ Doing h xs' tgt r' n' ∧ n' < n := by
  cases hd with
  | begin ht =>
    refine ⟨_, w, xs, ?n, by simp only [Turn.access, hr.live h (by simp), if_true]; rfl, Turns.refl hr, ?_, ?_⟩
    case n => exact if xs = [] then 0 else 6 * xs.length
    · rw [hr.linked.first]
      cases xs with
      | nil => simp only [List.map_nil, List.headD_nil, if_true]; exact .over (by simpa using ht)
      | cons x m =>
        have hne : x.1 ≠ h := by simpa using headD_ne (l := []) (m := m) (r := []) (x := x) (h := h) (by simpa using hr.nodup)
        simp only [List.map_cons, List.headD_cons, if_neg hne]
        have := Doing.back (h := h) (l := []) (m := m) (r := []) (x := x) (tgt := tgt) (by simpa using ht)
        simpa using this
    · split <;> omega
  | @back l m r x _ ht =>
    have hlast : w.live ((r.map (·.1)).headD h) = true := by
      refine hr.live _ ?_
      cases r <;> simp
    refine ⟨_, w, l ++ (x :: m ++ r), ?n, by simp only [Turn.access, hlast, if_true]; rfl, Turns.refl hr, ?_, ?_⟩
    case n => exact if m = [] then 0 else 6 * m.length + 5
    · rcases List.eq_nil_or_concat m with rfl | ⟨m0, y, rfl⟩
      · have hpr : w.prev ((r.map (·.1)).headD h) = x.1 := by
          have := hr.linked
          simp only [List.map_append, List.map_cons, List.cons_append, List.nil_append] at this
          exact this.around.2
        simp only [hpr, if_true]
        refine .over ?_
        simpa [vals] using ht
      · simp only [List.concat_eq_append] at *
        have hpr : w.prev ((r.map (·.1)).headD h) = y.1 := by
          have hlk := hr.linked
          have : (l ++ (x :: (m0 ++ [y]) ++ r)).map (·.1) = (l ++ x :: m0).map (·.1) ++ y.1 :: r.map (·.1) := by simp
          rw [this] at hlk
          exact hlk.around.2
        have hxy : x.1 ≠ y.1 := by
          have := headD_ne (l := l) (m := m0) (r := y :: r) (x := x) (h := h) (by simpa using hr.nodup)
          simpa using this
        simp only [hpr, if_neg hxy]
        have := Doing.load (h := h) (l := l) (m := m0) (r := r) (x := x) (y := y) (tgt := tgt) (by simpa [vals] using ht)
        rw [if_neg (by simp)]
        have e : 6 * (m0 ++ [y]).length + 5 = 6 * m0.length + 11 := by simp; omega
        rw [e]
        simpa using this
    · split <;> omega
  | @load l m r x y _ ht =>
    exact ⟨_, w, _, _, by simp only [Turn.access, hr.deref (x := x) (by simp)], Turns.refl hr, .loadLast ht, by omega⟩
  | @loadLast l m r x y _ ht =>
    exact ⟨_, w, _, _, by simp only [Turn.access, hr.deref (x := y) (by simp)], Turns.refl hr, .store ht, by omega⟩
  | @store l m r x y _ ht =>
    obtain ⟨w', e, t, -⟩ := hr.store y.2
    exact ⟨_, w', _, _, by simp only [Turn.access, e], t, .storeLast (x := (x.1, y.2)) (v := x.2) ht, by omega⟩
  | @storeLast l m r x y v _ ht =>
    have hr' : Rep w h ((l ++ x :: m) ++ y :: r) := by simpa using hr
    obtain ⟨w', e, t, -⟩ := hr'.store v
    refine ⟨_, w', l ++ x :: (m ++ (y.1, v) :: r), _, by simp only [Turn.access, e], by simpa using t, .ahead (y := (y.1, v)) ht, by omega⟩
  | @ahead l m r x y _ ht =>
    have hlive : w.live x.1 = true := hr.live _ (by simp)
    have hn : w.next x.1 = ((m ++ y :: r).map (·.1)).headD h := by
      have hlk := hr.linked
      have : (l ++ x :: (m ++ y :: r)).map (·.1) = l.map (·.1) ++ x.1 :: (m ++ y :: r).map (·.1) := by simp
      rw [this] at hlk
      exact hlk.around.1
    refine ⟨_, w, _, ?n, by simp only [Turn.access, hlive, if_true]; rfl, Turns.refl hr, ?_, ?_⟩
    case n => exact if m = [] then 0 else 6 * m.length
    · rw [hn]
      cases m with
      | nil => simp only [List.nil_append, List.map_cons, List.headD_cons, if_true]; exact .over (by simpa [vals] using ht)
      | cons z m =>
        have hzy : z.1 ≠ y.1 := by
          have := headD_ne (l := l ++ [x]) (m := m) (r := y :: r) (x := z) (h := h) (by simpa using hr.nodup)
          simpa using this
        simp only [List.cons_append, List.map_cons, List.headD_cons, if_neg hzy]
        rw [if_neg (by simp)]
        have := Doing.back (h := h) (l := l ++ [x]) (m := m) (r := y :: r) (x := z) (tgt := tgt) (by simpa [vals] using ht)
        simpa using this
    · split <;> omega
  | over ht => exact absurd rfl hp

/-! ### All lists -/

theorem rep_unique {w : World α} {h : Nat} {xs ys : List (Nat × α)} (h1 : Rep w h xs) (h2 : Rep w h ys) : xs = ys := by
  have := h1.nodes
  rw [h2.nodes] at this
  exact (Except.ok.inj this).symm

/-- The lists of a map. -/
def listsOf (G : Map α) : Nodes.Spec.Lists α := fun o => (G o).map fun x => vals x.2

theorem keeps_of {w : World α} {G : Map α} (hi : Inv w G) (P : Nat → Prop) : Keeps P G w (listsOf G) :=
  ⟨G, hi, fun _ => rfl, fun _ _ => rfl⟩

theorem inv_turn {w w' : World α} {G : Map α} {o h : Nat} {xs xs' : List (Nat × α)} (hi : Inv w G) (hG : G o = some (h, xs))
    (t : Turns h w xs w' xs') : Inv w' (fun x => if x = o then some (h, xs') else G x) := by
  have ho : w.objs o = some h := by rw [hi.objs, hG]; rfl
  rcases (keeps_of hi (fun x => x ≠ o)).look o with ⟨h1, -⟩ | ⟨h0, xs0, h1, -, hr, next⟩
  · rw [ho] at h1; cases h1
  · rw [ho] at h1
    cases h1
    obtain rfl := rep_unique hr (hi.rep _ _ _ hG)
    obtain ⟨G', hi', -, hk⟩ := next w' xs' (fun hn => hn rfl) t
    have : G' = fun x => if x = o then some (h, xs') else G x := by
      funext x
      by_cases c : x = o
      · subst c
        rw [if_pos rfl]
        have ho' : w'.objs x = some h := by rw [t.within.objs]; exact ho
        rw [hi'.objs] at ho'
        cases e : G' x with
        | none => rw [e] at ho'; cases ho'
        | some p =>
          obtain ⟨h2, ys⟩ := p
          rw [e] at ho'
          cases ho'
          rw [rep_unique (hi'.rep _ _ _ e) t.rep]
      · rw [if_neg c, hk x c]
    rw [← this]
    exact hi'

/-- Lists that an event does not use do not matter to it. -/
theorem step_agree {P : Nat → Prop} {g g' : Nodes.Spec.Lists α} {e : Ev α} (hu : ∀ o, P o → ¬ Spec.Uses o e)
    (ha : ∀ o, ¬ P o → g o = g' o) :
    (Nodes.Spec.step g e).2 = (Nodes.Spec.step g' e).2 ∧ ∀ o, ¬ P o → (Nodes.Spec.step g e).1 o = (Nodes.Spec.step g' e).1 o := by
  have h : ∀ o, Spec.Uses o e → g o = g' o := fun o ho => ha o (fun hp => hu o hp ho)
  have hset : ∀ {p : Nat} {x : Option (List α)} (o : Nat), ¬ P o → Nodes.Spec.set g p x o = Nodes.Spec.set g' p x o := by
    intro p x o ho
    simp only [Nodes.Spec.set]
    split
    · rfl
    · exact ha o ho
  cases e with
  | create p =>
    have hp := h p rfl
    simp only [Nodes.Spec.step, hp]
    refine ⟨trivial, fun o ho => ?_⟩
    split
    · exact ha o ho
    · exact hset o ho
  | copy p c =>
    have hp := h p (.inl rfl)
    have hc := h c (.inr rfl)
    simp only [Nodes.Spec.step, hp, hc]
    refine ⟨trivial, fun o ho => ?_⟩
    split
    · exact ha o ho
    · cases g' p with
      | some l => exact hset o ho
      | none => exact ha o ho
  | assign p c =>
    have hp := h p (.inl rfl)
    have hc := h c (.inr rfl)
    simp only [Nodes.Spec.step, hp, hc]
    refine ⟨trivial, fun o ho => ?_⟩
    cases g' p with
    | none => exact ha o ho
    | some l =>
      cases g' c with
      | none => exact ha o ho
      | some l' => exact hset o ho
  | extend p c =>
    have hp := h p (.inl rfl)
    have hc := h c (.inr rfl)
    simp only [Nodes.Spec.step, hp, hc]
    refine ⟨trivial, fun o ho => ?_⟩
    cases g' p with
    | none => exact ha o ho
    | some l =>
      cases g' c with
      | none => exact ha o ho
      | some l' => exact hset o ho
  | on p op =>
    have hp := h p rfl
    simp only [Nodes.Spec.step, hp]
    split
    · exact ⟨rfl, ha⟩
    · exact ⟨rfl, hset⟩
  | drop p =>
    simp only [Nodes.Spec.step]
    exact ⟨trivial, hset⟩

theorem uses_of_changes {o : Nat} {e : Ev α} (h : Nodes.Spec.changes o e) : Spec.Uses o e := by
  cases e with
  | create p => exact h
  | copy p c => exact .inr h
  | assign p c => exact .inl h
  | extend p c => exact .inl h
  | on p op => exact h
  | drop p => exact h

/-- The schedule so far and the one-step calls agree. -/
def Sim (s : State α) (g : Nodes.Spec.Lists α) : Prop :=
  ∃ G : Map α, Inv s.w G ∧ (∀ o, (∀ t r, s.tasks t ≠ some (o, r)) → g o = listsOf G o) ∧
    (∀ t t' o r r', s.tasks t = some (o, r) → s.tasks t' = some (o, r') → t = t') ∧
    ∀ t o r, s.tasks t = some (o, r) → ∃ h xs tgt n, G o = some (h, xs) ∧ g o = some tgt ∧ Doing h xs tgt r n

theorem sim_start : Sim (start : State α) fun _ => none := by
  refine ⟨fun _ => none, ⟨fun _ => rfl, fun _ _ _ h => by simp at h, fun _ _ _ _ _ _ _ h => by simp at h⟩, fun _ _ => rfl, ?_, ?_⟩
  · intro t t' o r r' h
    cases h
  · intro t o r h
    cases h

theorem sim_contents {s : State α} {g : Nodes.Spec.Lists α} (h : Sim s g) {o : Nat} (ho : ∀ t r, s.tasks t ≠ some (o, r)) :
    contents s.w o = (g o).map .ok := by
  obtain ⟨G, hi, hg, -, -⟩ := h
  rw [hg o ho]
  exact (keeps_of hi (fun _ => False)).contents o

theorem step_tick {s : State α} {t o : Nat} {r r' : Turn α} {w' : World α} (ht : s.tasks t = some (o, r)) (hp : r.phase ≠ .over)
    (k : r.access s.w = .ok (r', w')) : step s (.tick t) = .ok (⟨w', put s.tasks t (some (o, r'))⟩, .quiet) := by
  obtain ⟨h, f, la, ph⟩ := r
  cases ph <;> first | exact absurd rfl hp | simp only [step, ht, k]

theorem sim_step {s : State α} {g : Nodes.Spec.Lists α} (h : Sim s g) {a : Act α} (hx : Spec.Exclusive1 s g a) :
    ∃ s' x, step s a = .ok (s', x) ∧ Spec.Learns g x a ∧ Sim s' (Spec.after1 g a) := by
  obtain ⟨G, hi, hg, hone, htask⟩ := h
  cases a with
  | call e =>
    obtain ⟨hok, hu⟩ := hx
    have hag : ∀ o, ¬ (∃ t r, s.tasks t = some (o, r)) → g o = listsOf G o := fun o ho => hg o (fun t r e => ho ⟨t, r, e⟩)
    have hus : ∀ o, (∃ t r, s.tasks t = some (o, r)) → ¬ Spec.Uses o e := fun o ⟨t, r, ht⟩ => hu t o r ht
    obtain ⟨k1, k2⟩ := step_agree (P := fun o => ∃ t r, s.tasks t = some (o, r)) hus hag
    have hok' : Nodes.Spec.evOk (listsOf G) e := by
      cases e with
      | on p op =>
        have : ¬ (∃ t r, s.tasks t = some (p, r)) := fun hp => hus p hp rfl
        intro l hl
        rw [← hag p this] at hl
        exact hok l hl
      | _ => trivial
    obtain ⟨w', e1, G', hi', hv, hk⟩ := step_refines (keeps_of hi (fun o => ∃ t r, s.tasks t = some (o, r))) e hok'
      (fun o ho hp => hus o hp (uses_of_changes ho))
    refine ⟨⟨w', s.tasks⟩, .ret (Nodes.Spec.step (listsOf G) e).2, by simp only [step, e1], by simp only [Spec.Learns, k1],
      G', hi', ?_, hone, ?_⟩
    · intro o ho
      have hno : ¬ (∃ t r, s.tasks t = some (o, r)) := fun ⟨t, r, e⟩ => ho t r e
      simp only [Spec.after1]
      rw [k2 o hno, hv o]
      rfl
    · intro t o r ht
      obtain ⟨h, xs, tgt, n, q1, q2, q3⟩ := htask t o r ht
      refine ⟨h, xs, tgt, n, (hk o ⟨t, r, ht⟩).trans q1, ?_, q3⟩
      simp only [Spec.after1]
      rw [step_others (fun hc => hus o ⟨t, r, ht⟩ (uses_of_changes hc))]
      exact q2
  | reverse t o =>
    obtain ⟨hidle, hfree⟩ := hx
    cases ho : s.w.objs o with
    | none =>
      have hgo : g o = none := by
        rw [hg o hfree]
        have := hi.objs o
        rw [ho] at this
        cases e : G o with
        | none => simp [listsOf, e]
        | some p => rw [e] at this; cases this
      refine ⟨s, .quiet, by simp only [step, ho], rfl, ?_⟩
      have : Spec.after1 g (.reverse t o : Act α) = g := by simp only [Spec.after1, Nodes.Spec.step, hgo]
      rw [this]
      exact ⟨G, hi, hg, hone, htask⟩
    | some hd =>
      have hG : ∃ xs, G o = some (hd, xs) := by
        have := hi.objs o
        rw [ho] at this
        cases e : G o with
        | none => rw [e] at this; cases this
        | some p =>
          obtain ⟨h2, ys⟩ := p
          rw [e] at this
          cases this
          exact ⟨ys, rfl⟩
      obtain ⟨xs, hG⟩ := hG
      have hgo : g o = some (vals xs) := by rw [hg o hfree]; simp only [listsOf, hG, Option.map_some]
      have haf : Spec.after1 g (.reverse t o : Act α) = Nodes.Spec.set g o (some (vals xs).reverse) := by
        simp only [Spec.after1, Nodes.Spec.step, hgo, Nodes.Spec.opStep]
      refine ⟨⟨s.w, put s.tasks t (some (o, ⟨hd, hd, hd, .begin⟩))⟩, .quiet, by simp only [step, ho], rfl, G, hi, ?_, ?_, ?_⟩
      · intro p hp
        have hpo : p ≠ o := by
          rintro rfl
          exact hp t _ (by dsimp only; rw [put_self])
        rw [haf]
        have : Nodes.Spec.set g o (some (vals xs).reverse) p = g p := by simp [Nodes.Spec.set, hpo]
        rw [this]
        refine hg p (fun t' r ht' => ?_)
        have htt : t' ≠ t := by rintro rfl; rw [hidle] at ht'; cases ht'
        exact hp t' r (by dsimp only; rw [put_ne _ _ htt]; exact ht')
      · intro t1 t2 p r1 r2 h1 h2
        dsimp only at h1 h2
        by_cases e1 : t1 = t
        · subst e1
          rw [put_self, Option.some.injEq, Prod.mk.injEq] at h1
          by_cases e2 : t2 = t1
          · exact e2.symm
          · rw [put_ne _ _ e2] at h2
            rw [← h1.1] at h2
            exact absurd h2 (hfree _ _)
        · rw [put_ne _ _ e1] at h1
          by_cases e2 : t2 = t
          · subst e2
            rw [put_self, Option.some.injEq, Prod.mk.injEq] at h2
            rw [← h2.1] at h1
            exact absurd h1 (hfree _ _)
          · rw [put_ne _ _ e2] at h2
            exact hone _ _ _ _ _ h1 h2
      · intro t' p r ht'
        dsimp only at ht'
        rw [haf]
        by_cases e : t' = t
        · subst e
          rw [put_self, Option.some.injEq, Prod.mk.injEq] at ht'
          obtain ⟨rfl, rfl⟩ := ht'
          exact ⟨hd, xs, (vals xs).reverse, _, hG, by simp [Nodes.Spec.set], .begin rfl⟩
        · rw [put_ne _ _ e] at ht'
          obtain ⟨h, ys, tgt, n, q1, q2, q3⟩ := htask t' p r ht'
          have hpo : p ≠ o := by rintro rfl; exact hfree _ _ ht'
          exact ⟨h, ys, tgt, n, q1, by simp [Nodes.Spec.set, hpo, q2], q3⟩
  | tick t =>
    cases ht : s.tasks t with
    | none => exact ⟨s, .quiet, by simp only [step, ht], .inl rfl, G, hi, hg, hone, htask⟩
    | some p =>
      obtain ⟨o, r⟩ := p
      obtain ⟨h, xs, tgt, n, q1, q2, q3⟩ := htask t o r ht
      by_cases hp : r.phase = .over
      · refine ⟨⟨s.w, put s.tasks t none⟩, .ret .none, by simp only [step, ht, hp], .inr rfl, G, hi, ?_, ?_, ?_⟩
        · intro p hpn
          by_cases c : p = o
          · subst c
            simp only [Spec.after1, q2, listsOf, q1, Option.map_some, doing_over q3 hp]
          · refine hg p (fun t' r' ht' => ?_)
            have htt : t' ≠ t := by
              rintro rfl
              rw [ht, Option.some.injEq, Prod.mk.injEq] at ht'
              exact c ht'.1.symm
            exact hpn t' r' (by dsimp only; rw [put_ne _ _ htt]; exact ht')
        · intro t1 t2 p r1 r2 h1 h2
          dsimp only at h1 h2
          by_cases e1 : t1 = t
          · subst e1; rw [put_self] at h1; cases h1
          · by_cases e2 : t2 = t
            · subst e2; rw [put_self] at h2; cases h2
            · rw [put_ne _ _ e1] at h1
              rw [put_ne _ _ e2] at h2
              exact hone _ _ _ _ _ h1 h2
        · intro t' p r' ht'
          dsimp only at ht'
          by_cases e : t' = t
          · subst e; rw [put_self] at ht'; cases ht'
          · rw [put_ne _ _ e] at ht'
            exact htask t' p r' ht'
      · obtain ⟨r', w', xs', n', k1, k2, k3, -⟩ := access_turns (hi.rep _ _ _ q1) q3 hp
        have hst : step s (.tick t) = .ok (⟨w', put s.tasks t (some (o, r'))⟩, .quiet) := step_tick ht hp k1
        refine ⟨_, .quiet, hst, .inl rfl, fun x => if x = o then some (h, xs') else G x, inv_turn hi q1 k2, ?_, ?_, ?_⟩
        · intro p hpn
          have c : p ≠ o := by
            rintro rfl
            exact hpn t r' (by dsimp only; rw [put_self])
          simp only [Spec.after1, listsOf, if_neg c]
          refine hg p (fun t' r'' ht' => ?_)
          have htt : t' ≠ t := by
            rintro rfl
            rw [ht, Option.some.injEq, Prod.mk.injEq] at ht'
            exact c ht'.1.symm
          exact hpn t' r'' (by dsimp only; rw [put_ne _ _ htt]; exact ht')
        · intro t1 t2 p r1 r2 h1 h2
          dsimp only at h1 h2
          by_cases e1 : t1 = t
          · subst e1
            rw [put_self, Option.some.injEq, Prod.mk.injEq] at h1
            by_cases e2 : t2 = t1
            · exact e2.symm
            · rw [put_ne _ _ e2, ← h1.1] at h2
              exact hone _ _ _ _ _ ht h2
          · rw [put_ne _ _ e1] at h1
            by_cases e2 : t2 = t
            · subst e2
              rw [put_self, Option.some.injEq, Prod.mk.injEq] at h2
              rw [← h2.1] at h1
              exact hone _ _ _ _ _ h1 ht
            · rw [put_ne _ _ e2] at h2
              exact hone _ _ _ _ _ h1 h2
        · intro t' p r'' ht'
          dsimp only at ht'
          by_cases e : t' = t
          · subst e
            rw [put_self, Option.some.injEq, Prod.mk.injEq] at ht'
            obtain ⟨rfl, rfl⟩ := ht'
            exact ⟨h, xs', tgt, n', by simp, q2, k3⟩
          · rw [put_ne _ _ e] at ht'
            have c : p ≠ o := by
              rintro rfl
              exact e (hone _ _ _ _ _ ht' ht)
            obtain ⟨h2, ys, tgt2, n2, j1, j2, j3⟩ := htask t' p r'' ht'
            exact ⟨h2, ys, tgt2, n2, by simp [c, j1], j2, j3⟩

theorem sim_run : ∀ (as : List (Act α)) {s : State α} {g : Nodes.Spec.Lists α}, Sim s g → Spec.Exclusive s g as →
    ∃ s' xs, run s as = .ok (s', xs) ∧ Spec.Learnt g as xs ∧ Sim s' (Spec.after g as)
  | [], s, g, h, _ => ⟨s, [], rfl, trivial, h⟩
  | a :: as, s, g, h, hx => by
    obtain ⟨hx1, hx2⟩ := hx
    obtain ⟨s1, x, e1, l1, h1⟩ := sim_step h hx1
    rw [e1] at hx2
    obtain ⟨s2, xs, e2, l2, h2⟩ := sim_run as h1 hx2
    exact ⟨s2, x :: xs, by simp only [run, e1, e2], ⟨l1, l2⟩, h2⟩

/-- Ticks of a thread end its call. -/
theorem sim_ends {t o : Nat} : ∀ (n : Nat) {s : State α} {g : Nodes.Spec.Lists α} {r : Turn α} {h : Nat} {xs : List (Nat × α)}
    {tgt : List α}, Sim s g → s.tasks t = some (o, r) → (∃ G : Map α, Inv s.w G ∧ G o = some (h, xs)) → Doing h xs tgt r n →
    ∃ k s', k ≤ n ∧ run s (List.replicate (k + 1) (.tick t)) = .ok (s', List.replicate k .quiet ++ [.ret .none]) ∧ Sim s' g ∧
      s'.tasks = put s.tasks t none := by
  intro n
  induction n using Nat.strongRecOn with
  | ind n ih =>
    intro s g r h xs tgt hs ht hG hd
    by_cases hp : r.phase = .over
    · obtain ⟨s1, x, e1, -, h1⟩ := sim_step hs (a := .tick t) trivial
      have e2 : step s (.tick t) = .ok (⟨s.w, put s.tasks t none⟩, .ret .none) := by simp only [step, ht, hp]
      rw [e2] at e1
      cases e1
      exact ⟨0, _, Nat.zero_le _, by simp only [List.replicate, run, e2]; rfl, h1, rfl⟩
    · obtain ⟨G, hi, hGo⟩ := hG
      obtain ⟨r', w', xs', n', k1, k2, k3, k4⟩ := access_turns (hi.rep _ _ _ hGo) hd hp
      have e2 : step s (.tick t) = .ok (⟨w', put s.tasks t (some (o, r'))⟩, .quiet) := step_tick ht hp k1
      obtain ⟨s1, x, e1, -, h1⟩ := sim_step hs (a := .tick t) trivial
      rw [e2] at e1
      cases e1
      obtain ⟨k, s', q1, q2, q3, q4⟩ := ih n' k4 h1 (r := r') (by dsimp only; rw [put_self]) ⟨_, inv_turn hi hGo k2, if_pos rfl⟩ k3
      refine ⟨k + 1, s', by omega, ?_, q3, ?_⟩
      · show run s (.tick t :: List.replicate (k + 1) (.tick t)) = _
        simp only [run, e2, q2]
        rfl
      · rw [q4]
        funext p
        by_cases e : p = t
        · subst e; rw [put_self, put_self]
        · rw [put_ne _ _ e, put_ne _ _ e]; exact put_ne _ _ e

theorem doing_short {h : Nat} {xs : List (Nat × α)} {tgt : List α} {r : Turn α} {n : Nat} (hd : Doing h xs tgt r n) :
    n ≤ 6 * xs.length + 1 := by
  cases hd <;> (try simp only [List.length_append, List.length_cons]) <;> omega

theorem doing_length {h : Nat} {xs : List (Nat × α)} {tgt : List α} {r : Turn α} {n : Nat} (hd : Doing h xs tgt r n) :
    tgt.length = xs.length := by
  cases hd <;> next ht => subst ht; simp [vals]; try omega

/-- A history of calls leaves a state with nothing in progress. -/
theorem sim_holds {w : World α} {g : Nodes.Spec.Lists α} (h : Holds w g) : Sim ⟨w, fun _ => none⟩ g := by
  obtain ⟨G, hi, hv, -⟩ := h
  refine ⟨G, hi, fun o _ => hv o, ?_, ?_⟩
  · intro t t' o r r' h
    cases h
  · intro t o r h
    cases h

theorem look_list {w : World α} {g : Nodes.Spec.Lists α} (hw : Holds w g) {o : Nat} {l : List α}
    (hl : contents w o = some (.ok l)) :
    ∃ G h xs, Nodes.Inv w G ∧ G o = some (h, xs) ∧ vals xs = l ∧ w.objs o = some h ∧ g o = some l := by
  have hc := hw.contents o
  obtain ⟨G, hi, hv, -⟩ := hw
  rw [hl] at hc
  cases hg : g o with
  | none => rw [hg] at hc; cases hc
  | some l' =>
    rw [hg] at hc
    cases hc
    have := hv o
    rw [hg] at this
    cases hG : G o with
    | none => rw [hG] at this; cases this
    | some p =>
      obtain ⟨h, xs⟩ := p
      rw [hG, Option.map_some, Option.some.injEq] at this
      exact ⟨G, h, xs, hi, hG, this.symm, by rw [hi.objs, hG]; rfl, rfl⟩

theorem run_cons {s s' s'' : State α} {a : Act α} {as : List (Act α)} {x : Obs α} {xs : List (Obs α)} (h : step s a = .ok (s', x))
    (h' : run s' as = .ok (s'', xs)) : run s (a :: as) = .ok (s'', x :: xs) := by
  simp only [run, h, h']

theorem run_cons_error {s s' : State α} {a : Act α} {as : List (Act α)} {x : Obs α} {u : UB} (h : step s a = .ok (s', x))
    (h' : run s' as = .error u) : run s (a :: as) = .error u := by
  simp only [run, h, h']

theorem run_error {s : State α} {a : Act α} {as : List (Act α)} {u : UB} (h : step s a = .error u) :
    run s (a :: as) = .error u := by
  simp only [run, h]

theorem tick_then {w : World α} (w' : World α) {T : Nat → Option (Nat × Turn α)} {t o : Nat} (r r' : Turn α) {as : List (Act α)} {u : UB}
    (hp : r.phase ≠ .over) (k : r.access w = .ok (r', w')) (h : run ⟨w', put T t (some (o, r'))⟩ as = .error u) :
    run ⟨w, put T t (some (o, r))⟩ (.tick t :: as) = .error u := by
  have e := step_tick (s := ⟨w, put T t (some (o, r))⟩) (t := t) (put_self _ _ _) hp k
  have : put (put T t (some (o, r))) t (some (o, r')) = put T t (some (o, r')) := by
    funext a
    by_cases c : a = t
    · rw [c, put_self, put_self]
    · rw [put_ne _ _ c, put_ne _ _ c, put_ne _ _ c]
  dsimp only at e
  rw [this] at e
  exact run_cons_error e h

/-! ### Freed nodes -/

theorem erase_dead {w w' : World α} {h b : Nat} (e : Nodes.erase w h b = .ok w') :
    w'.live b = false ∧ ∀ a, w.live a = false → w'.live a = false := by
  unfold Nodes.erase at e
  split at e
  · cases e
  · unfold Nodes.unhook at e
    split at e
    · cases e
    · next heq =>
      split at heq
      · cases heq
        cases e
        refine ⟨put_self _ _ _, fun a ha => ?_⟩
        dsimp only
        by_cases c : a = b
        · rw [c, put_self]
        · rw [put_ne _ _ c]; exact ha
      · cases heq

theorem eraseTo_dead {h stop : Nat} : ∀ (k a : Nat) {w w' : World α}, eraseTo w h stop k a = .ok w' →
    ∀ b, w.live b = false → w'.live b = false := by
  intro k
  induction k with
  | zero => intro a w w' e; cases e
  | succ k ih =>
    intro a w w' e b hb
    simp only [eraseTo] at e
    split at e
    · cases e; exact hb
    · split at e
      · cases e
      · next w1 e1 => exact ih _ e b ((erase_dead e1).2 b hb)

theorem clear_dead {w w' : World α} {h : Nat} (e : Nodes.clear w h = .ok w') (hne : w.next h ≠ h) :
    w'.live (w.next h) = false := by
  unfold Nodes.clear at e
  split at e
  · simp only [eraseTo, if_neg hne] at e
    split at e
    · cases e
    · next w1 e1 => exact eraseTo_dead _ _ e _ (erase_dead e1).1
  · cases e

theorem eraseTo_all_dead {h : Nat} : ∀ (m : List (Nat × α)) {w w' : World α} {k : Nat}, Rep w h m →
    eraseTo w h h k ((m.map (·.1)).headD h) = .ok w' → ∀ x ∈ m, w'.live x.1 = false := by
  intro m
  induction m with
  | nil => intro w w' k _ _ x hx; cases hx
  | cons y m ih =>
    intro w w' k hr e x hx
    have hne : y.1 ≠ h := by simpa using headD_ne (l := []) (m := m) (r := []) (x := y) (h := h) (by simpa using hr.nodup)
    cases k with
    | zero => cases e
    | succ k =>
      have hr' : Rep w h ([] ++ y :: m) := hr
      obtain ⟨w1, e1, t1, -, n1⟩ := hr'.erase
      simp only [List.map_cons, List.headD_cons, eraseTo, if_neg hne, e1] at e
      rw [n1] at e
      rcases List.mem_cons.1 hx with rfl | hx
      · exact eraseTo_dead _ _ e _ (erase_dead e1).1
      · exact ih t1.rep e x hx

theorem clear_all_dead {w w' : World α} {h : Nat} {xs : List (Nat × α)} (hr : Rep w h xs) (e : Nodes.clear w h = .ok w') :
    ∀ x ∈ xs, w'.live x.1 = false := by
  unfold Nodes.clear at e
  rw [if_pos (hr.live h (by simp)), hr.linked.first] at e
  exact eraseTo_all_dead xs hr e

/-- With all nodes gone, the next access of a call that holds iterators to two elements fails. -/
theorem access_dead {w : World α} {h : Nat} {xs : List (Nat × α)} {tgt : List α} {r : Turn α} {n : Nat}
    (hd : Doing h xs tgt r n) (hp : r.phase ≠ .over) (hl : r.last ≠ r.h) (hdead : ∀ x ∈ xs, w.live x.1 = false) :
    r.access w = .error .useAfterFree := by
  cases hd with
  | begin ht => exact absurd rfl hl
  | over ht => exact absurd rfl hp
  | @back l m r x _ ht =>
    cases r with
    | nil => exact absurd rfl hl
    | cons y r =>
      have := hdead y (by simp)
      simp only [Turn.access, List.map_cons, List.headD_cons, this]
      rfl
  | @load l m r x y _ ht => simp only [Turn.access, deref, hdead x (by simp)]; rfl
  | @loadLast l m r x y _ ht => simp only [Turn.access, deref, hdead y (by simp)]; rfl
  | @store l m r x y _ ht => simp only [Turn.access, Nodes.store, hdead x (by simp)]; rfl
  | @storeLast l m r x y v _ ht => simp only [Turn.access, Nodes.store, hdead y (by simp)]; rfl
  | @ahead l m r x y _ ht => simp only [Turn.access, hdead x (by simp)]; rfl

/-! ### Half-reversed lists -/

theorem access_torn {w w' : World α} {h : Nat} {xs xs' : List (Nat × α)} {tgt : List α} {r r' : Turn α} {n : Nat} (hr : Rep w h xs)
    (hd : Doing h xs tgt r n) (hp : r.phase ≠ .over) (hq : ∀ v, r.phase = .storeLast v → w.val r.last = some v)
    (e : r.access w = .ok (r', w')) (hr' : Rep w' h xs') :
    (vals xs' = vals xs ∧ ∀ v, r'.phase = .storeLast v → w'.val r'.last = some v) ∨
      (vals xs' ≠ vals xs ∧ vals xs' ≠ tgt) := by
  cases hd with
  | begin ht =>
    simp only [Turn.access] at e
    split at e
    · cases e
      refine .inl ⟨by rw [rep_unique hr' hr], fun v hv => ?_⟩
      dsimp only at hv
      split at hv <;> cases hv
    · cases e
  | @back l m r x _ ht =>
    simp only [Turn.access] at e
    split at e
    · cases e
      refine .inl ⟨by rw [rep_unique hr' hr], fun v hv => ?_⟩
      dsimp only at hv
      split at hv <;> cases hv
    · cases e
  | @load l m r x y _ ht =>
    simp only [Turn.access, hr.deref (x := x) (by simp)] at e
    cases e
    exact .inl ⟨by rw [rep_unique hr' hr], fun v hv => by cases hv⟩
  | @loadLast l m r x y _ ht =>
    simp only [Turn.access, hr.deref (x := y) (by simp)] at e
    cases e
    exact .inl ⟨by rw [rep_unique hr' hr], fun v hv => by cases hv⟩
  | @store l m r x y _ ht =>
    obtain ⟨w2, e2, t, -⟩ := hr.store y.2
    simp only [Turn.access, e2] at e
    cases e
    have hxs := rep_unique hr' t.rep
    subst hxs
    by_cases c : x.2 = y.2
    · refine .inl ⟨by simp [vals, c], fun v hv => ?_⟩
      cases hv
      exact (hr'.vals y (by simp)).trans (by rw [c])
    · refine .inr ⟨fun hh => ?_, fun hh => ?_⟩
      · simp only [vals, List.map_append, List.map_cons, List.append_cancel_left_eq, List.cons.injEq] at hh
        exact c hh.1.symm
      · rw [ht] at hh
        simp only [vals, List.map_append, List.map_cons, List.append_cancel_left_eq, List.cons.injEq, true_and] at hh
        have := List.append_inj_right hh (by simp)
        rw [List.cons.injEq] at this
        exact c this.1.symm
  | @storeLast l m r x y v _ ht =>
    have hr2 : Rep w h ((l ++ x :: m) ++ y :: r) := by simpa using hr
    obtain ⟨w2, e2, t, -⟩ := hr2.store v
    simp only [Turn.access, e2] at e
    cases e
    have hxs := rep_unique hr' t.rep
    subst hxs
    have hv := hq v rfl
    dsimp only at hv
    rw [hr.vals y (by simp), Option.some.injEq] at hv
    refine .inl ⟨by simp [vals, hv], fun v hv => by cases hv⟩
  | @ahead l m r x y _ ht =>
    simp only [Turn.access] at e
    split at e
    · cases e
      refine .inl ⟨by rw [rep_unique hr' hr], fun v hv => ?_⟩
      dsimp only at hv
      split at hv <;> cases hv
    · cases e
  | over ht => exact absurd rfl hp

/-- A list that is to change is seen in between. -/
theorem torn {t o : Nat} : ∀ (n : Nat) {s : State α} {r : Turn α} {h : Nat} {xs : List (Nat × α)} {tgt : List α} {G : Map α},
    Nodes.Inv s.w G → G o = some (h, xs) → s.tasks t = some (o, r) → Doing h xs tgt r n →
    (∀ v, r.phase = .storeLast v → s.w.val r.last = some v) → vals xs ≠ tgt →
    ∃ k s' m, run s (List.replicate k (.tick t)) = .ok (s', List.replicate k .quiet) ∧ contents s'.w o = some (.ok m) ∧
      m ≠ vals xs ∧ m ≠ tgt := by
  intro n
  induction n using Nat.strongRecOn with
  | ind n ih =>
    intro s r h xs tgt G hi hG ht hd hq hne
    have hp : r.phase ≠ .over := fun hp => hne (doing_over hd hp).symm
    obtain ⟨r', w', xs', n', k1, k2, k3, k4⟩ := access_turns (hi.rep _ _ _ hG) hd hp
    have e := step_tick ht hp k1
    have hi' := inv_turn hi hG k2
    rcases access_torn (hi.rep _ _ _ hG) hd hp hq k1 k2.rep with ⟨c1, c2⟩ | ⟨c1, c2⟩
    · obtain ⟨k, s', m, q1, q2, q3, q4⟩ := ih n' k4 (s := ⟨w', put s.tasks t (some (o, r'))⟩) hi' (if_pos rfl)
        (by dsimp only; rw [put_self]) k3 c2 (by rw [c1]; exact hne)
      exact ⟨k + 1, s', m, run_cons e q1, q2, by rw [← c1]; exact q3, q4⟩
    · refine ⟨1, _, vals xs', run_cons e rfl, ?_, c1, c2⟩
      have := (keeps_of hi' (fun _ => False)).contents o
      rw [this]
      simp [listsOf]

end Verif.LinkedThreads
