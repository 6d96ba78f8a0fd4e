import Verif.Lemmas.ThreadsRace
import Verif.Spec.ObjThreads

/-! Helper lemmas for C66, ObjectArrayList. -/

namespace Verif.ObjThreads

open Verif.Threads Verif.Store

variable {cfg : Cfg} {H : OHost} {fuel : Nat}

/-- The schedule so far and the one-step calls agree. -/
structure Sim (s : State) (a : OState) : Prop where
  heap : a.heap = s.heap
  size : s.size ≤ s.cells.length
  idle : (∀ t, s.tasks t = none) → a.vec = s.cells.take s.size
  one : ∀ t t' r r', s.tasks t = some r → s.tasks t' = some r' → t = t'
  task : ∀ t r, s.tasks t = some r → r.blk = some s.blk ∧ r.count = s.size ∧
    ∃ tgt, Threads.RevInv r s.cells tgt ∧ a.vec = tgt.take s.size

theorem sim_start (l : List Obj) (h : Heap) : Sim (start l h) ⟨l, h⟩ where
  heap := rfl
  size := Nat.le_refl _
  idle := fun _ => by simp [start]
  one := fun _ _ _ _ h => by cases h
  task := fun _ _ h => by cases h

theorem sim_list {s : State} {a : OState} (h : Sim s a) (hi : ∀ t, s.tasks t = none) : s.list = a := by
  obtain ⟨v, hp⟩ := a
  have h1 := h.idle hi
  have h2 := h.heap
  dsimp only at h1 h2
  simp only [State.list, h1, h2]

theorem put_list (s : State) (o : OState) : (s.put o).list = o ∧ (s.put o).tasks = s.tasks ∧
    (s.put o).size ≤ (s.put o).cells.length := by
  unfold State.put
  split
  · refine ⟨?_, rfl, ?_⟩
    · simp only [State.list, List.take_left]
    · simp
  · refine ⟨?_, rfl, Nat.le_refl _⟩
    simp only [State.list, List.take_length]

theorem sim_put {s : State} (hi : ∀ t, s.tasks t = none) (o : OState) : Sim (s.put o) o := by
  obtain ⟨h1, h2, h3⟩ := put_list s o
  refine ⟨?_, h3, fun _ => ?_, fun t _ _ _ h => ?_, fun t _ h => ?_⟩
  · exact (congrArg OState.heap h1).symm
  · conv => lhs; rw [← h1]
    rfl
  · rw [h2, hi] at h; cases h
  · rw [h2, hi] at h; cases h

theorem sim_step {s : State} {a : OState} (h : Sim s a) {x : Act} (hx : Spec.Exclusive1 s x) :
    match step cfg H fuel s x with
    | .ok (s', y) => Spec.Learns cfg H fuel a y x ∧ ∃ a', Spec.after1 cfg H fuel a x = .ok a' ∧ Sim s' a'
    | .error u => Spec.after1 cfg H fuel a x = .error u := by
  cases x with
  | call op =>
    have hi : ∀ t, s.tasks t = none := hx
    simp only [step, Spec.Learns, Spec.after1, sim_list h hi]
    cases ObjArray.step cfg H fuel a op with
    | ok o v => exact ⟨rfl, o, rfl, sim_put hi o⟩
    | exc o e => exact ⟨rfl, o, rfl, sim_put hi o⟩
    | pending o v e => exact ⟨rfl, o, rfl, sim_put hi o⟩
    | ub u => rfl
  | release o =>
    simp only [step, Spec.Learns, Spec.after1, h.heap]
    cases s.heap.decref o with
    | error u => rfl
    | ok hp => exact ⟨rfl, _, rfl, ⟨rfl, h.size, h.idle, h.one, h.task⟩⟩
  | reverse t =>
    have hi : ∀ t, s.tasks t = none := hx
    simp only [step, Spec.Learns, Spec.after1]
    refine ⟨trivial, _, rfl, h.heap, h.size, fun hh => ?_, ?_, ?_⟩
    · have := hh t
      simp only [upd_same] at this
      cases this
    · intro t1 t2 r1 r2 h1 h2
      dsimp only at h1 h2
      by_cases e1 : t1 = t
      · by_cases e2 : t2 = t
        · rw [e1, e2]
        · rw [upd_other _ _ e2, hi] at h2; cases h2
      · rw [upd_other _ _ e1, hi] at h1; cases h1
    · intro t1 r1 h1
      dsimp only at h1
      by_cases e1 : t1 = t
      · subst e1
        rw [upd_same] at h1
        cases h1
        refine ⟨rfl, rfl, turned s.size s.cells, revInv_start cfg .i64 _ h.size, ?_⟩
        dsimp only
        rw [h.idle hi, turned, List.take_left' (by rw [List.length_reverse, List.length_take]; have := h.size; omega)]
      · rw [upd_other _ _ e1, hi] at h1; cases h1
  | tick t =>
    simp only [step, Spec.Learns, Spec.after1]
    cases ht : s.tasks t with
    | none => exact ⟨.inl rfl, a, rfl, h⟩
    | some r =>
      obtain ⟨q1, q2, tgt, q3, q4⟩ := h.task t r ht
      dsimp only
      by_cases hd : r.todo = []
      · rw [if_pos hd]
        refine ⟨.inr rfl, a, rfl, h.heap, h.size, fun _ => ?_, ?_, ?_⟩
        · rw [revInv_done q3 hd]; exact q4
        · intro t1 t2 r1 r2 h1 h2
          dsimp only at h1 h2
          by_cases e1 : t1 = t
          · subst e1; rw [upd_same] at h1; cases h1
          · rw [upd_other _ _ e1] at h1
            exact absurd (h.one _ _ _ _ h1 ht) e1
        · intro t1 r1 h1
          dsimp only at h1
          by_cases e1 : t1 = t
          · subst e1; rw [upd_same] at h1; cases h1
          · rw [upd_other _ _ e1] at h1
            exact absurd (h.one _ _ _ _ h1 ht) e1
      · rw [if_neg hd, if_neg (by rw [q1]; simp)]
        obtain ⟨r', cs', k1, k2, k3, k4⟩ := revInv_access q3 hd
        rw [k1]
        have hlen : cs'.length = s.cells.length := by rw [← k2.1, q3.1]
        refine ⟨.inl rfl, a, rfl, h.heap, ?_, fun hh => ?_, ?_, ?_⟩
        · dsimp only; rw [hlen]; exact h.size
        · have := hh t
          simp only [upd_same] at this
          cases this
        · intro t1 t2 r1 r2 h1 h2
          dsimp only at h1 h2
          by_cases e1 : t1 = t
          · by_cases e2 : t2 = t
            · rw [e1, e2]
            · rw [upd_other _ _ e2] at h2
              exact absurd (h.one _ _ _ _ h2 ht) e2
          · rw [upd_other _ _ e1] at h1
            exact absurd (h.one _ _ _ _ h1 ht) e1
        · intro t1 r1 h1
          dsimp only at h1
          by_cases e1 : t1 = t
          · subst e1
            rw [upd_same] at h1
            cases h1
            exact ⟨k3.trans q1, k4.trans q2, tgt, k2, q4⟩
          · rw [upd_other _ _ e1] at h1
            exact absurd (h.one _ _ _ _ h1 ht) e1

theorem sim_run : ∀ (as : List Act) {s : State} {a : OState}, Sim s a → Spec.Exclusive cfg H fuel s as →
    match run cfg H fuel s as with
    | .ok (s', xs) => Spec.Learnt cfg H fuel a as xs ∧ ∃ a', Spec.after cfg H fuel a as = .ok a' ∧ Sim s' a'
    | .error u => Spec.after cfg H fuel a as = .error u
  | [], s, a, h, _ => ⟨trivial, a, rfl, h⟩
  | x :: as, s, a, h, hx => by
    obtain ⟨hx1, hx2⟩ := hx
    have h1 := sim_step (cfg := cfg) (H := H) (fuel := fuel) h hx1
    simp only [run, Spec.after]
    cases e : step cfg H fuel s x with
    | error u =>
      rw [e] at h1
      simp only [h1]
    | ok p =>
      obtain ⟨s', y⟩ := p
      rw [e] at h1 hx2
      obtain ⟨l1, a', e1, h2⟩ := h1
      have h3 := sim_run as h2 hx2
      dsimp only
      rw [e1]
      cases e2 : run cfg H fuel s' as with
      | error u => rw [e2] at h3; exact h3
      | ok p =>
        obtain ⟨s'', ys⟩ := p
        rw [e2] at h3
        refine ⟨⟨l1, ?_⟩, h3.2⟩
        rw [e1]
        exact h3.1

theorem run_cons {s s' s'' : State} {a : Act} {as : List Act} {x : Obs} {xs : List Obs} (h : step cfg H fuel s a = .ok (s', x))
    (h' : run cfg H fuel s' as = .ok (s'', xs)) : run cfg H fuel s (a :: as) = .ok (s'', x :: xs) := by
  simp only [run, h, h']

theorem run_append : ∀ {as bs : List Act} {s s' s'' : State} {xs ys : List Obs}, run cfg H fuel s as = .ok (s', xs) →
    run cfg H fuel s' bs = .ok (s'', ys) → run cfg H fuel s (as ++ bs) = .ok (s'', xs ++ ys)
  | [], bs, s, s', s'', xs, ys, h, h' => by cases h; exact h'
  | a :: as, bs, s, s', s'', xs, ys, h, h' => by
    simp only [run] at h
    cases e1 : step cfg H fuel s a with
    | error u => rw [e1] at h; cases h
    | ok p =>
      obtain ⟨s1, x⟩ := p
      rw [e1] at h
      dsimp only at h
      cases e2 : run cfg H fuel s1 as with
      | error u => rw [e2] at h; cases h
      | ok p =>
        obtain ⟨s2, zs⟩ := p
        rw [e2] at h
        cases h
        exact run_cons e1 (run_append e2 h')

/-- Left alone, `reverse` turns the cells it started with. -/
theorem rev_ends {t : Nat} {tgt : List Obj} : ∀ (m : Nat) (s : State) (r : Rev Obj), r.left = m → s.tasks t = some r →
    r.blk = some s.blk → Threads.RevInv r s.cells tgt →
    run cfg H fuel s (List.replicate (m + 1) (.tick t)) =
      .ok ({ s with cells := tgt, tasks := upd s.tasks t none }, List.replicate m .quiet ++ [.ret .none]) := by
  intro m
  induction m with
  | zero =>
    intro s r hm ht hb hI
    have hd : r.todo = [] := by
      unfold Rev.left at hm
      split at hm <;> first | assumption | omega
    have e : step cfg H fuel s (.tick t) = .ok ({ s with tasks := upd s.tasks t none }, .ret .none) := by
      simp only [step, ht, hd, if_true]
    refine (run_cons e rfl).trans ?_
    rw [← revInv_done hI hd]
    rfl
  | succ m ih =>
    intro s r hm ht hb hI
    have hd : r.todo ≠ [] := by
      intro hd
      unfold Rev.left at hm
      rw [hd] at hm
      simp at hm
    obtain ⟨r', cs', k1, k2, k3, k4⟩ := revInv_access hI hd
    have hl := access_left k1
    have e : step cfg H fuel s (.tick t) = .ok ({ s with cells := cs', tasks := upd s.tasks t (some r') }, .quiet) := by
      simp only [step, ht, if_neg hd, hb, k1, ne_eq, not_true_eq_false, if_false]
    have := ih { s with cells := cs', tasks := upd s.tasks t (some r') } r' (by omega) (by simp only [upd_same]) (k3.trans hb) k2
    refine (run_cons e this).trans ?_
    have hu : upd (upd s.tasks t (some r')) t none = upd s.tasks t none := by
      funext x
      by_cases c : x = t
      · rw [c, upd_same, upd_same]
      · rw [upd_other _ _ c, upd_other _ _ c, upd_other _ _ c]
    dsimp only
    rw [hu]
    rfl

end Verif.ObjThreads
