import Verif.Lemmas.LinkedThreads

/-!
# C66, linked lists: `reverse` with other threads beside it

`Learnt` and `after` (Spec/LinkedThreads.lean) are what happens when every call acts at once.
-/

namespace Verif.Props

open Verif.Nodes Verif.LinkedThreads

variable {α : Type}

/-- For every schedule in which no other thread uses a list while it is being reversed: no undefined behaviour, what the threads
learn is what they learn when every call acts at once, and so are all lists that are not being reversed at the end. -/
theorem C66_linked_partial {sch : List (Act α)} (hx : LinkedThreads.Spec.Exclusive LinkedThreads.start (fun _ => none) sch) :
    ∃ s xs, LinkedThreads.run LinkedThreads.start sch = .ok (s, xs) ∧ LinkedThreads.Spec.Learnt (fun _ => none) sch xs ∧
      ∀ o, (∀ t r, s.tasks t ≠ some (o, r)) → contents s.w o = (LinkedThreads.Spec.after (fun _ => none) sch o).map .ok := by
  obtain ⟨s, xs, e, h1, h2⟩ := sim_run sch sim_start hx
  exact ⟨s, xs, e, h1, fun o ho => sim_contents h2 ho⟩

/-- In such a schedule a `reverse` in progress can always be brought to its end by its own thread, in at most six accesses per
element and one more; the list is then as if the call had acted at once. -/
theorem C66_linked_reverse_ends {sch : List (Act α)} (hx : LinkedThreads.Spec.Exclusive LinkedThreads.start (fun _ => none) sch)
    {s : LinkedThreads.State α} {xs : List (Obs α)} (hr : LinkedThreads.run LinkedThreads.start sch = .ok (s, xs)) {t o : Nat}
    {r : Turn α} (ht : s.tasks t = some (o, r)) :
    ∃ l k s', LinkedThreads.Spec.after (fun _ => none) sch o = some l ∧ k ≤ 6 * l.length + 1 ∧
      LinkedThreads.run s (List.replicate (k + 1) (.tick t)) = .ok (s', List.replicate k .quiet ++ [.ret .none]) ∧
      contents s'.w o = some (.ok l) ∧ s'.tasks t = none := by
  obtain ⟨s0, xs0, e, -, h⟩ := sim_run sch sim_start hx
  rw [hr] at e
  cases e
  have h' := h
  obtain ⟨G, hi, -, hone, htask⟩ := h'
  obtain ⟨hd, ys, l, n, q1, q2, q3⟩ := htask t o r ht
  obtain ⟨k, s', p1, p2, p3, p4⟩ := sim_ends n h ht ⟨G, hi, q1⟩ q3
  refine ⟨l, k, s', q2, ?_, p2, ?_, by rw [p4, put_self]⟩
  · have := doing_short q3
    rw [doing_length q3]
    omega
  · rw [sim_contents p3, q2]
    · rfl
    · intro t' r' hh
      rw [p4] at hh
      by_cases c : t' = t
      · rw [c, put_self] at hh
        cases hh
      · rw [put_ne _ _ c] at hh
        exact c (hone _ _ _ _ _ hh ht)

/-- The property fails: if another thread clears a list that is being reversed, the next access but one is to freed memory,
for every list with elements, after every history. -/
theorem C66_linked_clear_uaf {es : List (Ev α)} {w : Nodes.World α} {o : Nat} {l : List α} (hok : Nodes.Spec.Ok (fun _ => none) es)
    (hr : runTo Nodes.World.start es = some w) (hl : contents w o = some (.ok l)) (hne : l ≠ []) (t : Nat) :
    LinkedThreads.run ⟨w, fun _ => none⟩ [.reverse t o, .tick t, .call (.on o .clear), .tick t, .tick t] =
      .error .useAfterFree := by
  obtain ⟨w0, e0, hw⟩ := runTo_holds es holds_start hok
  rw [hr] at e0
  cases e0
  obtain ⟨G, h, xs, hi, hG, hxs, ho, -⟩ := look_list hw hl
  have hrep := hi.rep _ _ _ hG
  cases xs with
  | nil => exact absurd hxs.symm hne
  | cons x m =>
    have hn : w.next h = x.1 := by rw [hrep.linked.first]; rfl
    have hxh : x.1 ≠ h := by simpa using headD_ne (l := []) (m := m) (r := []) (x := x) (h := h) (by simpa using hrep.nodup)
    obtain ⟨w', ec, tc⟩ := hrep.clear
    have hdead : w'.live x.1 = false := by rw [← hn]; exact clear_dead ec (by rw [hn]; exact hxh)
    have hlive : w'.live h = true := tc.rep.live h (by simp)
    have hprev : w'.prev h = h := tc.rep.linked.2
    refine run_cons_error (s' := ⟨w, put (fun _ => none) t (some (o, ⟨h, h, h, .begin⟩))⟩) (x := .quiet)
      (by simp only [LinkedThreads.step, ho]) ?_
    refine tick_then w ⟨h, h, h, .begin⟩ ⟨h, x.1, h, .back⟩ (by simp)
      (by simp only [Turn.access, hrep.live h (by simp), if_true, hn, if_neg hxh]) ?_
    refine run_cons_error (s' := ⟨w', put (fun _ => none) t (some (o, ⟨h, x.1, h, .back⟩))⟩) (x := .ret .none)
      (by simp only [LinkedThreads.step, Nodes.step, ho, ec, done]) ?_
    refine tick_then w' ⟨h, x.1, h, .back⟩ ⟨h, x.1, h, .load⟩ (by simp)
      (by simp only [Turn.access, hlive, if_true, hprev, if_neg hxh]) ?_
    refine LinkedThreads.run_error ?_
    simp only [LinkedThreads.step, put_self, Turn.access, deref, hdead]
    rfl

/-- The property fails at every moment: in any schedule in which no other thread uses a list while it is being reversed, as soon
as the call holds iterators to two elements and until it is over, a `clear` by another thread makes its very next access one to
freed memory. -/
theorem C66_linked_clear_any_uaf {sch : List (Act α)}
    (hx : LinkedThreads.Spec.Exclusive LinkedThreads.start (fun _ => none) sch) {s : LinkedThreads.State α} {xs : List (Obs α)}
    (hr : LinkedThreads.run LinkedThreads.start sch = .ok (s, xs)) {t o : Nat} {r : Turn α} (ht : s.tasks t = some (o, r))
    (hp : r.phase ≠ .over) (hl : r.last ≠ r.h) :
    LinkedThreads.run s [.call (.on o .clear), .tick t] = .error .useAfterFree := by
  obtain ⟨s0, xs0, e, -, h⟩ := sim_run sch sim_start hx
  rw [hr] at e
  cases e
  obtain ⟨G, hi, -, -, htask⟩ := h
  obtain ⟨hd, ys, l, n, q1, -, q3⟩ := htask t o r ht
  have hrep := hi.rep _ _ _ q1
  have ho : s.w.objs o = some hd := by rw [hi.objs, q1]; rfl
  obtain ⟨w', ec, -⟩ := hrep.clear
  refine run_cons_error (s' := ⟨w', s.tasks⟩) (x := .ret .none)
    (by simp only [LinkedThreads.step, Nodes.step, ho, ec, done]) ?_
  refine LinkedThreads.run_error ?_
  have := access_dead (w := w') q3 hp hl (clear_all_dead hrep ec)
  obtain ⟨h', f, la, ph⟩ := r
  cases ph <;> first | exact absurd rfl hp | simp only [LinkedThreads.step, ht, this]

/-- The property fails: if another thread pops the last element just when it is about to be swapped, the call reads the freed
node, for every list with two or more elements. -/
theorem C66_linked_pop_uaf {es : List (Ev α)} {w : Nodes.World α} {o : Nat} {l : List α} (hok : Nodes.Spec.Ok (fun _ => none) es)
    (hr : runTo Nodes.World.start es = some w) (hl : contents w o = some (.ok l)) (h2 : 2 ≤ l.length) (t : Nat) :
    LinkedThreads.run ⟨w, fun _ => none⟩ [.reverse t o, .tick t, .tick t, .call (.on o .popBack), .tick t, .tick t] =
      .error .useAfterFree := by
  obtain ⟨w0, e0, hw⟩ := runTo_holds es holds_start hok
  rw [hr] at e0
  cases e0
  obtain ⟨G, h, xs, hi, hG, hxs, ho, -⟩ := look_list hw hl
  have hrep := hi.rep _ _ _ hG
  cases xs with
  | nil => rw [← hxs] at h2; simp at h2
  | cons x m =>
    rcases List.eq_nil_or_concat m with rfl | ⟨m0, y, rfl⟩
    · rw [← hxs] at h2; simp at h2
    · rw [List.concat_eq_append] at *
      have hn : w.next h = x.1 := by rw [hrep.linked.first]; rfl
      have hxh : x.1 ≠ h := by
        simpa using headD_ne (l := []) (m := m0 ++ [y]) (r := []) (x := x) (h := h) (by simpa using hrep.nodup)
      have hxy : x.1 ≠ y.1 := by
        simpa using headD_ne (l := []) (m := m0) (r := [y]) (x := x) (h := h) (by simpa using hrep.nodup)
      have hrep2 : Rep w h ((x :: m0) ++ y :: []) := by simpa using hrep
      have hprev : w.prev h = y.1 := by
        have := hrep2.linked
        rw [List.map_append] at this
        exact this.around.2
      obtain ⟨w', ec, tc, -⟩ := hrep2.erase
      have hdead : w'.live y.1 = false := (erase_dead ec).1
      have hlive := hrep.live h (by simp)
      refine run_cons_error (s' := ⟨w, put (fun _ => none) t (some (o, ⟨h, h, h, .begin⟩))⟩) (x := .quiet)
        (by simp only [LinkedThreads.step, ho]) ?_
      refine tick_then w ⟨h, h, h, .begin⟩ ⟨h, x.1, h, .back⟩ (by simp)
        (by simp only [Turn.access, hlive, if_true, hn, if_neg hxh]) ?_
      refine tick_then w ⟨h, x.1, h, .back⟩ ⟨h, x.1, y.1, .load⟩ (by simp)
        (by simp only [Turn.access, hlive, if_true, hprev, if_neg hxy]) ?_
      refine run_cons_error (s' := ⟨w', put (fun _ => none) t (some (o, ⟨h, x.1, y.1, .load⟩))⟩) (x := .ret .none)
        (by simp only [LinkedThreads.step, Nodes.step, ho, hlive, if_true, hprev, ec, done]) ?_
      refine tick_then w' ⟨h, x.1, y.1, .load⟩ ⟨h, x.1, y.1, .loadLast x.2⟩ (by simp)
        (by simp only [Turn.access, tc.rep.deref (x := x) (by simp)]) ?_
      refine LinkedThreads.run_error ?_
      simp only [LinkedThreads.step, put_self, Turn.access, deref, hdead]
      rfl

/-- The property fails: for every list that is not its own reverse there is a moment at which another thread finds neither the
list nor its reverse. -/
theorem C66_linked_torn {es : List (Ev α)} {w : Nodes.World α} {o : Nat} {l : List α} (hok : Nodes.Spec.Ok (fun _ => none) es)
    (hr : runTo Nodes.World.start es = some w) (hl : contents w o = some (.ok l)) (hne : l ≠ l.reverse) (t : Nat) :
    ∃ k s m, LinkedThreads.run ⟨w, fun _ => none⟩ (.reverse t o :: List.replicate k (.tick t)) =
      .ok (s, .quiet :: List.replicate k .quiet) ∧ contents s.w o = some (.ok m) ∧ m ≠ l ∧ m ≠ l.reverse := by
  obtain ⟨w0, e0, hw⟩ := runTo_holds es holds_start hok
  rw [hr] at e0
  cases e0
  obtain ⟨G, h, xs, hi, hG, rfl, ho, -⟩ := look_list hw hl
  obtain ⟨k, s, m, q1, q2, q3, q4⟩ := torn (t := t) (o := o) _
    (s := ⟨w, put (fun _ => none) t (some (o, ⟨h, h, h, .begin⟩))⟩) hi hG (by dsimp only; rw [put_self]) (.begin rfl)
    (fun v hv => by cases hv) hne
  exact ⟨k, s, m, LinkedThreads.run_cons (by simp only [LinkedThreads.step, ho]) q1, q2, q3, q4⟩

/-- A schedule with two lists: one is reversed while another thread appends to the other. -/
def linkedTrace : List (Act Int) :=
  [.call (.create 0), .call (.create 1), .call (.on 0 (.push 1)), .call (.on 0 (.push 2)),
    .reverse 7 0, .tick 7, .call (.on 1 (.push 9)), .tick 7, .tick 7, .tick 7, .tick 7, .call (.on 1 .toList), .tick 7,
    .tick 7, .tick 7, .call (.on 0 .toList)]

theorem linkedTrace_exclusive : LinkedThreads.Spec.Exclusive LinkedThreads.start (fun _ => none) linkedTrace := by
  have idle : ∀ {s : LinkedThreads.State Int} {e : Ev Int}, s.tasks = (fun _ => none) →
      ∀ t o r, s.tasks t = some (o, r) → ¬ LinkedThreads.Spec.Uses o e := by
    intro s e h t o r hh
    rw [h] at hh
    cases hh
  have one : ∀ {s : LinkedThreads.State Int} {e : Ev Int}, (∀ t, t ≠ 7 → s.tasks t = none) → (∀ r, s.tasks 7 = some r → r.1 = 0) →
      ¬ LinkedThreads.Spec.Uses 0 e → ∀ t o r, s.tasks t = some (o, r) → ¬ LinkedThreads.Spec.Uses o e := by
    intro s e h h' hu t o r hh
    by_cases c : t = 7
    · subst c
      have := h' _ hh
      dsimp only at this
      rw [this]
      exact hu
    · rw [h t c] at hh
      cases hh
  refine ⟨⟨trivial, idle rfl⟩, ⟨trivial, idle rfl⟩, ⟨fun _ _ => trivial, idle rfl⟩, ⟨fun _ _ => trivial, idle rfl⟩,
    ⟨rfl, fun _ _ h => by cases h⟩, trivial, ⟨fun _ _ => trivial, one ?_ ?_ ?_⟩, trivial, trivial, trivial, trivial,
    ⟨fun _ _ => trivial, one ?_ ?_ ?_⟩, trivial, trivial, trivial, ⟨fun _ _ => trivial, ?_⟩, trivial⟩
  · intro t ht
    exact (if_neg ht).trans (if_neg ht)
  · intro r hr
    cases hr
    rfl
  · intro h
    cases h
  · intro t ht
    exact (if_neg ht).trans ((if_neg ht).trans ((if_neg ht).trans ((if_neg ht).trans ((if_neg ht).trans (if_neg ht)))))
  · intro r hr
    cases hr
    rfl
  · intro h
    cases h
  · intro t o r hh
    by_cases c : t = 7
    · subst c
      cases hh
    · have k : ∀ {f : Nat → Option (Nat × Turn Int)} {b : Option (Nat × Turn Int)}, f t = none → put f 7 b t = none :=
        fun h => (if_neg c).trans h
      have : none = some (o, r) := (k (k (k (k (k (k (k (k (k rfl))))))))).symm.trans hh
      cases this

/-- What the last call of the trace answers: the reversed list. -/
example : (LinkedThreads.run LinkedThreads.start linkedTrace).toOption.map (fun p => p.2.getLast?) =
    some (some (.ret (.vals [2, 1]))) := rfl

/-- In the middle of the trace the call is in progress. -/
example : ∃ s xs r, LinkedThreads.run LinkedThreads.start (linkedTrace.take 11) = .ok (s, xs) ∧ s.tasks 7 = some (0, r) :=
  ⟨_, _, _, rfl, rfl⟩

/-- It holds iterators to both elements. -/
example : ∃ s xs r, LinkedThreads.run LinkedThreads.start (linkedTrace.take 11) = .ok (s, xs) ∧ s.tasks 7 = some (0, r) ∧
    r.phase ≠ .over ∧ r.last ≠ r.h :=
  ⟨_, _, _, rfl, rfl, by simp, by decide⟩

/-- The hypotheses of the theorems about failures are met. -/
example : ∃ w : Nodes.World Int, Nodes.Spec.Ok (fun _ => none) [.create 0, .on 0 (.push 1), .on 0 (.push 2)] ∧
    runTo Nodes.World.start [.create 0, .on 0 (.push 1), .on 0 (.push 2)] = some w ∧ contents w 0 = some (.ok [1, 2]) ∧
    [(1 : Int), 2] ≠ [1, 2].reverse :=
  ⟨_, ⟨trivial, fun _ _ => trivial, fun _ _ => trivial, trivial⟩, rfl, rfl, by decide⟩

end Verif.Props
