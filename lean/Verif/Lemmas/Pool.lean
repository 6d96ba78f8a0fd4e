import Verif.Spec.Pool

/-! Helper lemmas for the thread pool. -/

namespace Verif.Pool

/-- The worker has the mutex. -/
def busy : Worker → Bool
  | .holding _ | .running _ | .stuck => true
  | _ => false

/-- The task that was popped but not started. -/
def held (s : St) : List Nat :=
  match s.mutex with
  | some (.worker i) => match s.workers i with | .holding k => [k] | _ => []
  | _ => []

structure Inv (n : Nat) (s : St) : Prop where
  fifo : s.submitted = s.begun ++ held s ++ s.queue
  work : ∀ i, busy (s.workers i) = true ↔ s.mutex = some (.worker i)
  subm : ∀ k, (s.frames k = .inside ∨ s.frames k = .pushed) ↔ s.mutex = some (.submit k)
  nd : s.submitted.Nodup
  mem : ∀ k, k ∈ s.submitted ↔ (s.frames k = .pushed ∨ s.frames k = .leaving ∨ s.frames k = .gone)
  exit : ∀ i, s.workers i = .exited → s.shutdown = true
  bound : ∀ i, n ≤ i → s.workers i = .ready
  active : s.shutdown = false → s.queue ≠ [] → 0 < n → ∃ i, i < n ∧ s.workers i ≠ .waiting ∧ s.workers i ≠ .exited

theorem inv_init (n : Nat) : Inv n init where
  fifo := rfl
  work i := by simp [init, busy]
  subm k := by simp [init]
  nd := by simp [init]
  mem k := by simp [init]
  exit i := by simp [init]
  bound i _ := rfl
  active _ h := absurd rfl h

theorem upd_same {α : Type} (f : Nat → α) (i : Nat) (v : α) : upd f i v i = v := by simp [upd]
theorem upd_other {α : Type} (f : Nat → α) {i j : Nat} (v : α) (h : j ≠ i) : upd f i v j = f j := by simp [upd, h]

theorem held_none {s : St} (h : s.mutex = none) : held s = [] := by simp [held, h]
theorem held_submit {s : St} {k : Nat} (h : s.mutex = some (.submit k)) : held s = [] := by simp [held, h]

variable {n : Nat} {s t : St}

theorem step_alive {l : Label} (h : step n s l = some t) : s.crashed = false := by
  cases hc : s.crashed with
  | false => rfl
  | true => simp [step, hc] at h

/-- A change of one frame that does not involve the mutex. -/
theorem inv_frame (h : Inv n s) (k : Nat) (f : Frame) (c : Bool)
    (hs : (f = .inside ∨ f = .pushed) ↔ (s.frames k = .inside ∨ s.frames k = .pushed))
    (hm : (f = .pushed ∨ f = .leaving ∨ f = .gone) ↔
      (s.frames k = .pushed ∨ s.frames k = .leaving ∨ s.frames k = .gone)) :
    Inv n { s with frames := upd s.frames k f, crashed := c } where
  fifo := h.fifo
  work := h.work
  subm j := by
    by_cases e : j = k
    · subst e; simp only [upd_same]; rw [hs]; exact h.subm j
    · simp only [upd_other _ _ e]; exact h.subm j
  nd := h.nd
  mem j := by
    by_cases e : j = k
    · subst e; simp only [upd_same]; rw [hm]; exact h.mem j
    · simp only [upd_other _ _ e]; exact h.mem j
  exit := h.exit
  bound := h.bound
  active := h.active

/-- A change of one worker that does not involve the mutex. -/
theorem inv_worker (h : Inv n s) (i : Nat) (w : Worker) (hi : i < n) (hb : busy w = false)
    (hb' : busy (s.workers i) = false) (he : w = .exited → s.shutdown = true)
    (ha : w = .ready ∨ s.shutdown = true ∨ s.queue = []) :
    Inv n { s with workers := upd s.workers i w } where
  fifo := by
    have : held { s with workers := upd s.workers i w } = held s := by
      unfold held
      simp only
      cases hm : s.mutex with
      | none => rfl
      | some who =>
        cases who with
        | submit k => rfl
        | worker j =>
          by_cases e : j = i
          · subst e
            have := (h.work j).2 hm
            rw [hb'] at this
            cases this
          · simp only [upd_other _ _ e]
    rw [this]
    exact h.fifo
  work j := by
    by_cases e : j = i
    · subst e
      simp only [upd_same]
      constructor
      · intro x; rw [hb] at x; cases x
      · intro x
        have := (h.work j).2 x
        rw [hb'] at this; cases this
    · simp only [upd_other _ _ e]; exact h.work j
  subm := h.subm
  nd := h.nd
  mem := h.mem
  exit j hj := by
    by_cases e : j = i
    · subst e; simp only [upd_same] at hj; exact he hj
    · simp only [upd_other _ _ e] at hj; exact h.exit j hj
  bound j hj := by
    have : j ≠ i := by omega
    simp only [upd_other _ _ this]; exact h.bound j hj
  active hs hq hn := by
    rcases ha with ha | ha | ha
    · exact ⟨i, hi, by simp [upd_same, ha]⟩
    · rw [ha] at hs; cases hs
    · exact absurd ha hq

theorem noneWaiting_iff : noneWaiting n s = true ↔ ∀ i, i < n → s.workers i ≠ .waiting := by
  simp [noneWaiting]

theorem inv_pushed (h : Inv n s) {k : Nat} (hk : s.frames k = .inside)
    (ha : 0 < n → s.shutdown = false → ∃ i, i < n ∧ s.workers i ≠ .waiting ∧ s.workers i ≠ .exited) :
    Inv n (pushed s k) := by
  have hm : s.mutex = some (.submit k) := (h.subm k).1 (.inl hk)
  have hnot : k ∉ s.submitted := by
    rw [h.mem, hk]; simp
  constructor
  · have e1 : held (pushed s k) = [] := held_submit (s := pushed s k) hm
    have e2 := h.fifo
    rw [held_submit hm] at e2
    rw [e1]
    show s.submitted ++ [k] = s.begun ++ [] ++ (s.queue ++ [k])
    rw [e2]
    simp
  · exact h.work
  · intro j
    show (upd s.frames k .pushed j = _ ∨ upd s.frames k .pushed j = _) ↔ s.mutex = _
    by_cases e : j = k
    · subst e; simp [upd_same, hm]
    · rw [upd_other _ _ e]; exact h.subm j
  · show (s.submitted ++ [k]).Nodup
    rw [List.nodup_append]
    refine ⟨h.nd, by simp, ?_⟩
    intro a ha b hb
    rw [List.mem_singleton] at hb
    subst hb
    intro e
    exact hnot (e ▸ ha)
  · intro j
    show j ∈ s.submitted ++ [k] ↔ (upd s.frames k .pushed j = _ ∨ upd s.frames k .pushed j = _ ∨ upd s.frames k .pushed j = _)
    by_cases e : j = k
    · subst e; simp [upd_same]
    · rw [upd_other _ _ e, List.mem_append, List.mem_singleton, h.mem]
      simp [e]
  · exact h.exit
  · exact h.bound
  · intro hs _ hn
    exact ha hn hs

theorem inv_step (h : Inv n s) {l : Label} (hl : step n s l = some t) : Inv n t := by
  have hc := step_alive hl
  unfold step at hl
  rw [if_neg (by rw [hc]; simp)] at hl
  cases l with
  | call k =>
    simp only at hl
    split at hl
    · next hk =>
      cases hl
      have := inv_frame h k .calling s.crashed (by simp [hk.1]) (by simp [hk.1])
      exact this
    · cases hl
  | lock k =>
    simp only at hl
    split at hl
    · next hk =>
      cases hl
      obtain ⟨hk, hm⟩ := hk
      have hnb : ∀ i, busy (s.workers i) = false := by
        intro i
        cases hb : busy (s.workers i) with
        | false => rfl
        | true => rw [(h.work i).1 hb] at hm; cases hm
      constructor
      · have e := h.fifo
        rw [held_none hm] at e
        rw [held_submit (k := k) rfl]
        exact e
      · intro i
        show busy (s.workers i) = true ↔ _
        rw [hnb i]; simp
      · intro j
        by_cases e : j = k
        · subst e; simp [upd_same]
        · simp only [upd_other _ _ e]
          rw [h.subm j, hm]
          simp only [reduceCtorEq, false_iff, Option.some.injEq, Who.submit.injEq]
          exact fun x => e x.symm
      · exact h.nd
      · intro j
        by_cases e : j = k
        · subst e; simp only [upd_same]; rw [h.mem, hk]; simp
        · simp only [upd_other _ _ e]; exact h.mem j
      · exact h.exit
      · exact h.bound
      · exact h.active
    · cases hl
  | push k wake =>
    simp only at hl
    split at hl
    · next hk =>
      cases wake with
      | some i =>
        simp only at hl
        split at hl
        · next hi =>
          cases hl
          have h1 : Inv n { s with workers := upd s.workers i .ready } :=
            inv_worker h i .ready hi.1 rfl (by rw [hi.2]; rfl) (by simp) (.inl rfl)
          exact inv_pushed h1 hk (fun _ _ => ⟨i, hi.1, by simp [upd_same], by simp [upd_same]⟩)
        · cases hl
      | none =>
        simp only at hl
        split at hl
        · next hw =>
          cases hl
          rw [noneWaiting_iff] at hw
          refine inv_pushed h hk (fun hn hs => ⟨0, hn, hw 0 hn, fun he => ?_⟩)
          rw [h.exit 0 he] at hs; cases hs
        · cases hl
    · cases hl
  | unlock k =>
    simp only at hl
    split at hl
    · next hk =>
      cases hl
      have hm : s.mutex = some (.submit k) := (h.subm k).1 (.inr hk)
      constructor
      · have e := h.fifo
        rw [held_submit hm] at e
        rw [held_none rfl]
        exact e
      · intro i
        show busy (s.workers i) = true ↔ _
        rw [h.work i, hm]; simp
      · intro j
        by_cases e : j = k
        · subst e; simp [upd_same]
        · simp only [upd_other _ _ e]
          rw [h.subm j, hm]
          simp only [Option.some.injEq, Who.submit.injEq, reduceCtorEq, iff_false]
          exact fun x => e x.symm
      · exact h.nd
      · intro j
        by_cases e : j = k
        · subst e; simp only [upd_same]; rw [h.mem, hk]; simp
        · simp only [upd_other _ _ e]; exact h.mem j
      · exact h.exit
      · exact h.bound
      · exact h.active
    · cases hl
  | drop k =>
    simp only at hl
    split at hl
    · next hk =>
      cases hl
      exact inv_frame h k .gone _ (by simp [hk]) (by simp [hk])
    · cases hl
  | poll i =>
    simp only at hl
    split at hl
    · next hi =>
      obtain ⟨hin, hw, hm⟩ := hi
      split at hl
      · next hs =>
        cases hl
        exact inv_worker h i .exited hin rfl (by rw [hw]; rfl) (fun _ => hs) (.inr (.inl hs))
      · next hs =>
        split at hl
        · next hq =>
          cases hl
          exact inv_worker h i .waiting hin rfl (by rw [hw]; rfl) (by simp) (.inr (.inr hq))
        · next k q hq =>
          cases hl
          have hnb : ∀ i, busy (s.workers i) = false := by
            intro i
            cases hb : busy (s.workers i) with
            | false => rfl
            | true => rw [(h.work i).1 hb] at hm; cases hm
          constructor
          · have e := h.fifo
            rw [held_none hm, hq] at e
            show s.submitted = s.begun ++ held _ ++ q
            rw [e]
            simp [held, upd_same]
          · intro j
            by_cases e : j = i
            · subst e; simp [upd_same, busy]
            · simp only [upd_other _ _ e]
              rw [hnb j]
              simp only [Bool.false_eq_true, Option.some.injEq, Who.worker.injEq, false_iff]
              exact fun x => e x.symm
          · intro j
            show _ ↔ some (Who.worker i) = some (Who.submit j)
            have := h.subm j
            rw [hm] at this
            simp only [reduceCtorEq, iff_false] at this
            simp only [Option.some.injEq, reduceCtorEq, iff_false]
            exact this
          · exact h.nd
          · exact h.mem
          · intro j hj
            by_cases e : j = i
            · subst e; simp [upd_same] at hj
            · simp only [upd_other _ _ e] at hj; exact h.exit j hj
          · intro j hj
            have : j ≠ i := by omega
            simp only [upd_other _ _ this]; exact h.bound j hj
          · intro _ _ _
            exact ⟨i, hin, by simp [upd_same], by simp [upd_same]⟩
    · cases hl
  | begin i =>
    cases hw : s.workers i with
    | holding k =>
      simp only [hw] at hl
      split at hl
      · next hin =>
        cases hl
        have hm : s.mutex = some (.worker i) := (h.work i).1 (by rw [hw]; rfl)
        constructor
        · have e := h.fifo
          have e1 : held s = [k] := by simp [held, hm, hw]
          rw [e1] at e
          show s.submitted = (s.begun ++ [k]) ++ held _ ++ s.queue
          rw [e]
          simp [held, hm, upd_same]
        · intro j
          show busy (upd s.workers i (.running k) j) = true ↔ s.mutex = some (.worker j)
          by_cases e : j = i
          · subst e; simp [upd_same, busy, hm]
          · rw [upd_other _ _ e]; exact h.work j
        · exact h.subm
        · exact h.nd
        · exact h.mem
        · intro j hj
          by_cases e : j = i
          · subst e; simp [upd_same] at hj
          · simp only [upd_other _ _ e] at hj; exact h.exit j hj
        · intro j hj
          have : j ≠ i := by omega
          simp only [upd_other _ _ this]; exact h.bound j hj
        · intro _ _ _
          exact ⟨i, hin, by simp [upd_same], by simp [upd_same]⟩
      · cases hl
    | _ => simp [hw] at hl
  | finish i =>
    cases hw : s.workers i with
    | running k =>
      simp only [hw] at hl
      split at hl
      · next hin =>
        cases hl
        have hm : s.mutex = some (.worker i) := (h.work i).1 (by rw [hw]; rfl)
        constructor
        · have e := h.fifo
          have e1 : held s = [] := by simp [held, hm, hw]
          rw [e1] at e
          rw [held_none rfl]
          exact e
        · intro j
          show busy (upd s.workers i .ready j) = true ↔ none = some (Who.worker j)
          by_cases e : j = i
          · subst e; simp [upd_same, busy]
          · rw [upd_other _ _ e]
            rw [h.work j, hm]
            simp only [Option.some.injEq, Who.worker.injEq, reduceCtorEq, iff_false]
            exact fun x => e x.symm
        · intro j
          show _ ↔ none = some (Who.submit j)
          have := h.subm j
          rw [hm] at this
          simp only [Option.some.injEq, reduceCtorEq, iff_false] at this
          simp only [reduceCtorEq, iff_false]
          exact this
        · exact h.nd
        · exact h.mem
        · intro j hj
          by_cases e : j = i
          · subst e; simp [upd_same] at hj
          · simp only [upd_other _ _ e] at hj; exact h.exit j hj
        · intro j hj
          have : j ≠ i := by omega
          simp only [upd_other _ _ this]; exact h.bound j hj
        · intro _ _ _
          exact ⟨i, hin, by simp [upd_same], by simp [upd_same]⟩
      · cases hl
    | _ => simp [hw] at hl
  | nested i =>
    cases hw : s.workers i with
    | running k =>
      simp only [hw] at hl
      split at hl
      · next hin =>
        cases hl
        have hm : s.mutex = some (.worker i) := (h.work i).1 (by rw [hw]; rfl)
        constructor
        · have e := h.fifo
          have e1 : held s = [] := by simp [held, hm, hw]
          rw [e1] at e
          rw [show held { s with workers := upd s.workers i .stuck } = [] by simp [held, hm, upd_same]]
          exact e
        · intro j
          show busy (upd s.workers i .stuck j) = true ↔ s.mutex = some (Who.worker j)
          by_cases e : j = i
          · subst e; simp [upd_same, busy, hm]
          · rw [upd_other _ _ e]; exact h.work j
        · exact h.subm
        · exact h.nd
        · exact h.mem
        · intro j hj
          by_cases e : j = i
          · subst e; simp [upd_same] at hj
          · simp only [upd_other _ _ e] at hj; exact h.exit j hj
        · intro j hj
          have : j ≠ i := by omega
          simp only [upd_other _ _ this]; exact h.bound j hj
        · intro _ _ _
          exact ⟨i, hin, by simp [upd_same], by simp [upd_same]⟩
      · cases hl
    | _ => simp [hw] at hl
  | spurious i =>
    simp only at hl
    split at hl
    · next hi =>
      cases hl
      exact inv_worker h i .ready hi.1 rfl (by rw [hi.2]; rfl) (by simp) (.inl rfl)
    · cases hl
  | close =>
    simp only at hl
    split at hl
    · next hm =>
      cases hl
      have hb : ∀ j, busy (if s.workers j = .waiting then Worker.ready else s.workers j) = busy (s.workers j) := by
        intro j
        split
        · next e => rw [e]; rfl
        · rfl
      constructor
      · have e := h.fifo
        rw [held_none hm.1] at e
        rw [held_none (by exact hm.1)]
        exact e
      · intro j
        show busy _ = true ↔ _
        rw [hb]; exact h.work j
      · exact h.subm
      · exact h.nd
      · exact h.mem
      · intro j _; rfl
      · intro j hj
        show (if s.workers j = .waiting then Worker.ready else s.workers j) = .ready
        rw [h.bound j hj]; rfl
      · intro hs; cases hs
    · cases hl

theorem inv_exec (ls : List Label) : ∀ s t : St, Inv n s → exec n s ls = some t → Inv n t := by
  induction ls with
  | nil => intro s t h e; cases e; exact h
  | cons l ls ih =>
    intro s t h e
    unfold exec at e
    cases hs : step n s l with
    | none => rw [hs] at e; cases e
    | some s' => rw [hs] at e; exact ih s' t (inv_step h hs) e

theorem exec_append (n : Nat) (as bs : List Label) : ∀ s t u : St, exec n s as = some t → exec n t bs = some u →
    exec n s (as ++ bs) = some u := by
  induction as with
  | nil => intro s t u h1 h2; cases h1; exact h2
  | cons a as ih =>
    intro s t u h1 h2
    rw [List.cons_append]
    unfold exec at h1 ⊢
    cases hs : step n s a with
    | none => rw [hs] at h1; cases h1
    | some s' => rw [hs] at h1; exact ih s' t u h1 h2

/-! ### What is recorded -/

open Verif.Spec

theorem step_submitted {l : Label} (hl : step n s l = some t) :
    t.submitted = s.submitted ++ handedOver [l] := by
  have hc := step_alive hl
  unfold step at hl
  rw [if_neg (by rw [hc]; simp)] at hl
  cases l <;> simp only at hl <;> (repeat' split at hl) <;> cases hl <;> simp [handedOver, pushed]

theorem exec_submitted (ls : List Label) : ∀ s t : St, exec n s ls = some t →
    t.submitted = s.submitted ++ handedOver ls := by
  induction ls with
  | nil => intro s t e; cases e; simp [handedOver]
  | cons l ls ih =>
    intro s t e
    unfold exec at e
    cases hs : step n s l with
    | none => rw [hs] at e; cases e
    | some s' =>
      rw [hs] at e
      rw [ih s' t e, step_submitted hs, List.append_assoc]
      congr 1
      rw [show l :: ls = [l] ++ ls from rfl, handedOver, handedOver, handedOver, List.filterMap_append]

theorem step_begun {l : Label} (hl : step n s l = some t) :
    t.begun = s.begun ∨ ∃ i k, l = .begin i ∧ s.workers i = .holding k ∧ t.begun = s.begun ++ [k] ∧
      (s.frames k = .gone → t.crashed = true) := by
  have hc := step_alive hl
  unfold step at hl
  rw [if_neg (by rw [hc]; simp)] at hl
  cases l with
  | begin i =>
    simp only at hl
    split at hl
    · next k hw =>
      split at hl
      · cases hl
        exact .inr ⟨i, k, rfl, hw, rfl, fun h => by simp [h]⟩
      · cases hl
    · cases hl
  | _ => left; simp only at hl; (repeat' split at hl) <;> cases hl <;> rfl

theorem step_begun_prefix {l : Label} (hl : step n s l = some t) : ∃ e, t.begun = s.begun ++ e := by
  rcases step_begun hl with h | ⟨_, k, _, _, h, _⟩
  · exact ⟨[], by rw [h]; simp⟩
  · exact ⟨[k], h⟩

theorem exec_begun_prefix (ls : List Label) : ∀ s t : St, exec n s ls = some t → ∃ e, t.begun = s.begun ++ e := by
  induction ls with
  | nil => intro s t e; cases e; exact ⟨[], by simp⟩
  | cons l ls ih =>
    intro s t e
    unfold exec at e
    cases hs : step n s l with
    | none => rw [hs] at e; cases e
    | some s' =>
      rw [hs] at e
      obtain ⟨e1, h1⟩ := step_begun_prefix hs
      obtain ⟨e2, h2⟩ := ih s' t e
      exact ⟨e1 ++ e2, by rw [h2, h1]; simp⟩

theorem inv_begun_nodup (h : Inv n s) : s.begun.Nodup := by
  have := h.nd
  rw [h.fifo, List.append_assoc, List.nodup_append] at this
  exact this.1

theorem inv_begun_prefix (h : Inv n s) : s.begun <+: s.submitted :=
  ⟨held s ++ s.queue, by rw [h.fifo, List.append_assoc]⟩

theorem held_mem (h : Inv n s) {i k : Nat} (hw : s.workers i = .holding k) : held s = [k] := by
  have hm : s.mutex = some (.worker i) := (h.work i).1 (by rw [hw]; rfl)
  simp [held, hm, hw]

/-- A task still to be started has not been started. -/
theorem not_begun (h : Inv n s) {k : Nat} (hk : k ∈ held s ∨ k ∈ s.queue) : k ∉ s.begun := by
  have := h.nd
  rw [h.fifo, List.append_assoc, List.nodup_append] at this
  intro hb
  exact this.2.2 k hb k (by rw [List.mem_append]; exact hk) rfl

/-! ### Quiet states -/

theorem quiet_begun (h : Inv n s) (hq : Quiet n s) (hc : s.crashed = false) (hs : s.shutdown = false) (hn : 0 < n)
    (hst : NoNested s) : s.begun = s.submitted := by
  have hm : s.mutex = none := by
    cases hm : s.mutex with
    | none => rfl
    | some who =>
      exfalso
      cases who with
      | submit k =>
        rcases (h.subm k).2 hm with hf | hf
        · by_cases hw : noneWaiting n s = true
          · have := hq (.push k none) rfl
            simp [step, hc, hf, hw] at this
          · have : ∃ i, i < n ∧ s.workers i = .waiting := by
              simpa [noneWaiting] using hw
            obtain ⟨i, hi, hw⟩ := this
            have := hq (.push k (some i)) rfl
            simp [step, hc, hf, hi, hw] at this
        · have := hq (.unlock k) rfl
          simp [step, hc, hf] at this
      | worker i =>
        have hb := (h.work i).2 hm
        have hi : i < n := by
          apply Nat.lt_of_not_le
          intro hle
          rw [h.bound i hle] at hb
          cases hb
        cases hw : s.workers i with
        | holding k =>
          have := hq (.begin i) rfl
          simp [step, hc, hw, hi] at this
        | running k =>
          have := hq (.finish i) rfl
          simp [step, hc, hw, hi] at this
        | stuck => exact hst i hw
        | _ => rw [hw] at hb; cases hb
  have hq0 : s.queue = [] := by
    cases hqq : s.queue with
    | nil => rfl
    | cons k q =>
      exfalso
      obtain ⟨i, hi, h1, h2⟩ := h.active hs (by rw [hqq]; simp) hn
      cases hw : s.workers i with
      | ready =>
        have := hq (.poll i) rfl
        simp [step, hc, hw, hi, hm, hs, hqq] at this
      | waiting => exact h1 hw
      | exited => exact h2 hw
      | _ =>
        have := (h.work i).1 (by rw [hw]; rfl)
        rw [hm] at this; cases this
  rw [h.fifo, held_none hm, hq0]
  simp

/-! ### The number of moves -/

def fw : Frame → Nat
  | .none => 0
  | .calling => 8
  | .inside => 7
  | .pushed => 2
  | .leaving => 1
  | .gone => 0

def ww : Worker → Nat
  | .ready => 1
  | .waiting => 0
  | .holding _ => 3
  | .running _ => 2
  | .stuck => 0
  | .exited => 0

def total (f : Nat → Nat) (L : List Nat) : Nat := (L.map f).sum

theorem total_upd_not {α : Type} (g : α → Nat) (f : Nat → α) (k : Nat) (v : α) : ∀ L : List Nat, k ∉ L →
    total (fun j => g (upd f k v j)) L = total (fun j => g (f j)) L := by
  intro L
  induction L with
  | nil => intro _; rfl
  | cons a L ih =>
    intro h
    rw [List.mem_cons, not_or] at h
    have := ih h.2
    simp only [total, List.map_cons, List.sum_cons] at this ⊢
    rw [this, upd_other _ _ (fun e => h.1 e.symm)]

theorem total_upd {α : Type} (g : α → Nat) (f : Nat → α) (k : Nat) (v : α) : ∀ L : List Nat, L.Nodup → k ∈ L →
    total (fun j => g (upd f k v j)) L + g (f k) = total (fun j => g (f j)) L + g v := by
  intro L
  induction L with
  | nil => intro _ h; cases h
  | cons a L ih =>
    intro hn hk
    rw [List.nodup_cons] at hn
    by_cases e : a = k
    · subst e
      have := total_upd_not g f a v L hn.1
      simp only [total, List.map_cons, List.sum_cons] at this ⊢
      rw [this, upd_same]
      omega
    · rw [List.mem_cons] at hk
      have := ih hn.2 (hk.resolve_left (fun x => e x.symm))
      simp only [total, List.map_cons, List.sum_cons] at this ⊢
      rw [upd_other _ _ e]
      omega

/-- Work left, `K` being the calls made so far. -/
def work (n : Nat) (K : List Nat) (s : St) : Nat :=
  total (fun k => fw (s.frames k)) K + total (fun i => ww (s.workers i)) (List.range n) + 3 * s.queue.length

/-- `K` lists the calls made so far. -/
structure Made (K : List Nat) (s : St) : Prop where
  nd : K.Nodup
  mem : ∀ k, k ∈ K ↔ s.frames k ≠ .none

def called (K : List Nat) : Label → List Nat
  | .call k => k :: K
  | _ => K

theorem range_upd (s : St) (i : Nat) (v : Worker) (hi : i < n) :
    total (fun j => ww (upd s.workers i v j)) (List.range n) + ww (s.workers i) =
      total (fun j => ww (s.workers j)) (List.range n) + ww v :=
  total_upd ww s.workers i v _ List.nodup_range (List.mem_range.2 hi)

theorem made_upd {K : List Nat} (h : Made K s) {k : Nat} (hk : s.frames k ≠ .none) (f : Frame) (hf : f ≠ .none)
    (t : St) (ht : t.frames = upd s.frames k f) : Made K t where
  nd := h.nd
  mem j := by
    rw [ht]
    by_cases e : j = k
    · subst e; rw [upd_same, h.mem]; exact ⟨fun _ => hf, fun _ => hk⟩
    · rw [upd_other _ _ e]; exact h.mem j

theorem total_close (f : Nat → Worker) : ∀ L : List Nat,
    total (fun j => ww (if f j = .waiting then .ready else f j)) L ≤ total (fun j => ww (f j)) L + L.length := by
  intro L
  induction L with
  | nil => exact Nat.le_refl _
  | cons a L ih =>
    simp only [total, List.map_cons, List.sum_cons, List.length_cons] at ih ⊢
    have : ww (if f a = .waiting then .ready else f a) ≤ ww (f a) + 1 := by
      split <;> simp [ww]
    omega

/-- Every move does work, except that a call brings 8 units, a spurious wake-up 1 and a shutdown `n`. -/
theorem step_work {K : List Nat} (hK : Made K s) {l : Label} (hl : step n s l = some t) :
    Made (called K l) t ∧
    work n (called K l) t + 1 ≤ work n K s + 9 * calls [l] + 2 * spurious [l] + (n + 1) * closes [l] := by
  have hc := step_alive hl
  unfold step at hl
  rw [if_neg (by rw [hc]; simp)] at hl
  cases l with
  | call k =>
    simp only at hl
    split at hl
    · next hk =>
      cases hl
      have hnot : k ∉ K := fun h => (hK.mem k).1 h hk.1
      refine ⟨⟨List.nodup_cons.2 ⟨hnot, hK.nd⟩, fun j => ?_⟩, ?_⟩
      · show j ∈ k :: K ↔ upd s.frames k .calling j ≠ .none
        by_cases e : j = k
        · subst e; simp [upd_same]
        · rw [upd_other _ _ e, ← hK.mem]; simp [e]
      · have := total_upd_not fw s.frames k .calling K hnot
        simp only [work, called]
        have e : total (fun j => fw (upd s.frames k .calling j)) (k :: K) =
            8 + total (fun j => fw (s.frames j)) K := by
          rw [← this]
          simp only [total, List.map_cons, List.sum_cons, upd_same, fw]
        rw [e]
        simp [calls, spurious, closes]
        omega
    · cases hl
  | lock k =>
    simp only at hl
    split at hl
    · next hk =>
      cases hl
      have hne : s.frames k ≠ .none := by rw [hk.1]; simp
      refine ⟨made_upd hK hne .inside (by simp) _ rfl, ?_⟩
      have := total_upd fw s.frames k .inside K hK.nd ((hK.mem k).2 hne)
      rw [hk.1] at this
      simp only [work, called]
      simp [calls, spurious, closes]
      simp only [fw] at this ⊢
      omega
    · cases hl
  | push k wake =>
    simp only at hl
    split at hl
    · next hk =>
      have hne : s.frames k ≠ .none := by rw [hk]; simp
      have h1 := total_upd fw s.frames k .pushed K hK.nd ((hK.mem k).2 hne)
      rw [hk] at h1
      cases wake with
      | some i =>
        simp only at hl
        split at hl
        · next hi =>
          cases hl
          refine ⟨made_upd hK hne .pushed (by simp) _ rfl, ?_⟩
          have h2 := range_upd s i .ready hi.1
          rw [hi.2] at h2
          simp only [work, called, pushed]
          simp [calls, spurious, closes]
          simp only [fw, ww] at h1 h2 ⊢
          omega
        · cases hl
      | none =>
        simp only at hl
        split at hl
        · cases hl
          refine ⟨made_upd hK hne .pushed (by simp) _ rfl, ?_⟩
          simp only [work, called, pushed]
          simp [calls, spurious, closes]
          simp only [fw] at h1 ⊢
          omega
        · cases hl
    · cases hl
  | unlock k =>
    simp only at hl
    split at hl
    · next hk =>
      cases hl
      have hne : s.frames k ≠ .none := by rw [hk]; simp
      refine ⟨made_upd hK hne .leaving (by simp) _ rfl, ?_⟩
      have := total_upd fw s.frames k .leaving K hK.nd ((hK.mem k).2 hne)
      rw [hk] at this
      simp only [work, called]
      simp [calls, spurious, closes]
      simp only [fw] at this ⊢
      omega
    · cases hl
  | drop k =>
    simp only at hl
    split at hl
    · next hk =>
      cases hl
      have hne : s.frames k ≠ .none := by rw [hk]; simp
      refine ⟨made_upd hK hne .gone (by simp) _ rfl, ?_⟩
      have := total_upd fw s.frames k .gone K hK.nd ((hK.mem k).2 hne)
      rw [hk] at this
      simp only [work, called]
      simp [calls, spurious, closes]
      simp only [fw] at this ⊢
      omega
    · cases hl
  | poll i =>
    simp only at hl
    split at hl
    · next hi =>
      obtain ⟨hin, hw, hm⟩ := hi
      split at hl
      · cases hl
        refine ⟨⟨hK.nd, hK.mem⟩, ?_⟩
        have := range_upd s i .exited hin
        rw [hw] at this
        simp only [work, called]
        simp [calls, spurious, closes]
        simp only [ww] at this ⊢
        omega
      · split at hl
        · cases hl
          refine ⟨⟨hK.nd, hK.mem⟩, ?_⟩
          have := range_upd s i .waiting hin
          rw [hw] at this
          simp only [work, called]
          simp [calls, spurious, closes]
          simp only [ww] at this ⊢
          omega
        · next k q hq =>
          cases hl
          refine ⟨⟨hK.nd, hK.mem⟩, ?_⟩
          have := range_upd s i (.holding k) hin
          rw [hw] at this
          simp only [work, called, hq, List.length_cons]
          simp [calls, spurious, closes]
          simp only [ww] at this ⊢
          omega
    · cases hl
  | begin i =>
    simp only at hl
    split at hl
    · next k hw =>
      split at hl
      · next hin =>
        cases hl
        refine ⟨⟨hK.nd, hK.mem⟩, ?_⟩
        have := range_upd s i (.running k) hin
        rw [hw] at this
        simp only [work, called]
        simp [calls, spurious, closes]
        simp only [ww] at this ⊢
        omega
      · cases hl
    · cases hl
  | finish i =>
    simp only at hl
    split at hl
    · next k hw =>
      split at hl
      · next hin =>
        cases hl
        refine ⟨⟨hK.nd, hK.mem⟩, ?_⟩
        have := range_upd s i .ready hin
        rw [hw] at this
        simp only [work, called]
        simp [calls, spurious, closes]
        simp only [ww] at this ⊢
        omega
      · cases hl
    · cases hl
  | nested i =>
    simp only at hl
    split at hl
    · next k hw =>
      split at hl
      · next hin =>
        cases hl
        refine ⟨⟨hK.nd, hK.mem⟩, ?_⟩
        have := range_upd s i .stuck hin
        rw [hw] at this
        simp only [work, called]
        simp [calls, spurious, closes]
        simp only [ww] at this ⊢
        omega
      · cases hl
    · cases hl
  | spurious i =>
    simp only at hl
    split at hl
    · next hi =>
      cases hl
      refine ⟨⟨hK.nd, hK.mem⟩, ?_⟩
      have := range_upd s i .ready hi.1
      rw [hi.2] at this
      simp only [work, called]
      simp [calls, spurious, closes]
      simp only [ww] at this ⊢
      omega
    · cases hl
  | close =>
    simp only at hl
    split at hl
    · cases hl
      refine ⟨⟨hK.nd, hK.mem⟩, ?_⟩
      have := total_close s.workers (List.range n)
      rw [List.length_range] at this
      simp only [work, called]
      simp [calls, spurious, closes]
      omega
    · cases hl

theorem exec_work (ls : List Label) : ∀ (K : List Nat) (s t : St), Made K s → exec n s ls = some t →
    ls.length ≤ work n K s + 9 * calls ls + 2 * spurious ls + (n + 1) * closes ls := by
  induction ls with
  | nil => intro K s t _ _; exact Nat.zero_le _
  | cons l ls ih =>
    intro K s t hK e
    unfold exec at e
    cases hs : step n s l with
    | none => rw [hs] at e; cases e
    | some s' =>
      rw [hs] at e
      obtain ⟨hK', hw⟩ := step_work hK hs
      have := ih _ s' t hK' e
      have c1 : calls (l :: ls) = calls [l] + calls ls := by
        rw [show l :: ls = [l] ++ ls from rfl, calls, calls, calls, List.countP_append]
      have c2 : spurious (l :: ls) = spurious [l] + spurious ls := by
        rw [show l :: ls = [l] ++ ls from rfl, spurious, spurious, spurious, List.countP_append]
      have c3 : closes (l :: ls) = closes [l] + closes ls := by
        rw [show l :: ls = [l] ++ ls from rfl, closes, closes, closes, List.countP_append]
      rw [c1, c2, c3, List.length_cons, Nat.mul_add, Nat.mul_add, Nat.mul_add]
      omega

theorem made_init : Made [] init := ⟨List.nodup_nil, fun k => by simp [init]⟩

theorem work_init (n : Nat) : work n [] init = n := by
  have : ∀ L : List Nat, total (fun _ => 1) L = L.length := by
    intro L
    induction L with
    | nil => rfl
    | cons a L ih =>
      simp only [total, List.map_cons, List.sum_cons, List.length_cons] at ih ⊢
      omega
  simp only [work, init, total, List.map_nil, List.sum_nil, ww, List.length_nil]
  have := this (List.range n)
  rw [List.length_range] at this
  simp only [total] at this
  omega

/-! ### After shutdown, after a nested call, with patient callers -/

theorem step_shutdown {l : Label} (hl : step n s l = some t) (hs : s.shutdown = true) : t.shutdown = true := by
  have hc := step_alive hl
  unfold step at hl
  rw [if_neg (by rw [hc]; simp)] at hl
  cases l <;> simp only at hl <;> (repeat' split at hl) <;> cases hl <;> first | exact hs | rfl

/-- Once `shutdown` is set, a queued task stays queued. -/
theorem step_shutdown_queue {l : Label} (hl : step n s l = some t) (hs : s.shutdown = true) {k : Nat}
    (hk : k ∈ s.queue) : k ∈ t.queue := by
  have hc := step_alive hl
  unfold step at hl
  rw [if_neg (by rw [hc]; simp)] at hl
  cases l <;> simp only [hs, if_true] at hl <;> (repeat' split at hl) <;> cases hl <;>
    first | exact hk | exact List.mem_append_left _ hk

theorem exec_shutdown_queue (ls : List Label) {k : Nat} : ∀ s t : St, Inv n s → exec n s ls = some t →
    s.shutdown = true → k ∈ s.queue → k ∉ t.begun := by
  induction ls with
  | nil => intro s t h e _ hk; cases e; exact not_begun h (.inr hk)
  | cons l ls ih =>
    intro s t h e hs hk
    unfold exec at e
    cases hst : step n s l with
    | none => rw [hst] at e; cases e
    | some s' =>
      rw [hst] at e
      exact ih s' t (inv_step h hst) e (step_shutdown hst hs) (step_shutdown_queue hst hs hk)

theorem step_stuck (h : Inv n s) {l : Label} (hl : step n s l = some t) {i : Nat} (hi : s.workers i = .stuck) :
    t.workers i = .stuck ∧ t.begun = s.begun := by
  have hm : s.mutex = some (.worker i) := (h.work i).1 (by rw [hi]; rfl)
  have hoth : ∀ j, busy (s.workers j) = true → j = i := by
    intro j hj
    have := (h.work j).1 hj
    rw [hm] at this
    cases this; rfl
  have hframe : ∀ k, s.frames k ≠ .inside ∧ s.frames k ≠ .pushed := by
    intro k
    constructor <;> intro hf
    · have := (h.subm k).1 (.inl hf); rw [hm] at this; cases this
    · have := (h.subm k).1 (.inr hf); rw [hm] at this; cases this
  have hc := step_alive hl
  unfold step at hl
  rw [if_neg (by rw [hc]; simp)] at hl
  cases l with
  | call k => simp only at hl; split at hl <;> cases hl; exact ⟨hi, rfl⟩
  | lock k => simp [hm] at hl
  | push k wake => simp [(hframe k).1] at hl
  | unlock k => simp [(hframe k).2] at hl
  | drop k => simp only at hl; split at hl <;> cases hl; exact ⟨hi, rfl⟩
  | poll j => simp [hm] at hl
  | begin j =>
    simp only at hl
    split at hl
    · next k hw =>
      have := hoth j (by rw [hw]; rfl)
      subst this
      rw [hi] at hw; cases hw
    · cases hl
  | finish j =>
    simp only at hl
    split at hl
    · next k hw =>
      have := hoth j (by rw [hw]; rfl)
      subst this
      rw [hi] at hw; cases hw
    · cases hl
  | nested j =>
    simp only at hl
    split at hl
    · next k hw =>
      have := hoth j (by rw [hw]; rfl)
      subst this
      rw [hi] at hw; cases hw
    · cases hl
  | spurious j =>
    simp only at hl
    split at hl
    · next hj =>
      cases hl
      have : i ≠ j := by rintro rfl; rw [hi] at hj; cases hj.2
      exact ⟨by simp only [upd_other _ _ this]; exact hi, rfl⟩
    · cases hl
  | close => simp [hm] at hl

theorem exec_stuck (ls : List Label) {i : Nat} : ∀ s t : St, Inv n s → exec n s ls = some t →
    s.workers i = .stuck → t.workers i = .stuck ∧ t.begun = s.begun := by
  induction ls with
  | nil => intro s t _ e hi; cases e; exact ⟨hi, rfl⟩
  | cons l ls ih =>
    intro s t h e hi
    unfold exec at e
    cases hst : step n s l with
    | none => rw [hst] at e; cases e
    | some s' =>
      rw [hst] at e
      obtain ⟨h1, h2⟩ := step_stuck h hst hi
      obtain ⟨h3, h4⟩ := ih s' t (inv_step h hst) e h1
      exact ⟨h3, by rw [h4, h2]⟩

/-- A returned call stays returned. -/
theorem step_gone {l : Label} (hl : step n s l = some t) {k : Nat} (hk : s.frames k = .gone) : t.frames k = .gone := by
  have hc := step_alive hl
  have key : ∀ j f, s.frames j ≠ .gone → upd s.frames j f k = .gone := by
    intro j f hj
    rw [upd_other _ _ (by rintro rfl; exact hj hk)]
    exact hk
  unfold step at hl
  rw [if_neg (by rw [hc]; simp)] at hl
  cases l with
  | call j =>
    simp only at hl
    split at hl
    · next h => cases hl; exact key j _ (by rw [h.1]; simp)
    · cases hl
  | lock j =>
    simp only at hl
    split at hl
    · next h => cases hl; exact key j _ (by rw [h.1]; simp)
    · cases hl
  | push j wake =>
    simp only at hl
    split at hl
    · next h =>
      (repeat' split at hl) <;> cases hl <;> exact key j _ (by rw [h]; simp)
    · cases hl
  | unlock j =>
    simp only at hl
    split at hl
    · next h => cases hl; exact key j _ (by rw [h]; simp)
    · cases hl
  | drop j =>
    simp only at hl
    split at hl
    · next h => cases hl; exact key j _ (by rw [h]; simp)
    · cases hl
  | _ => simp only at hl; (repeat' split at hl) <;> cases hl <;> exact hk

theorem exec_dangling (ls : List Label) {k : Nat} : ∀ s t : St, exec n s ls = some t →
    s.frames k = .gone → k ∉ s.begun → k ∈ t.begun → t.crashed = true := by
  induction ls with
  | nil => intro s t e _ h1 h2; cases e; exact absurd h2 h1
  | cons l ls ih =>
    intro s t e hg h1 h2
    unfold exec at e
    cases hst : step n s l with
    | none => rw [hst] at e; cases e
    | some s' =>
      rw [hst] at e
      rcases step_begun hst with hb | ⟨i, j, _, _, hb, hcr⟩
      · exact ih s' t e (step_gone hst hg) (by rw [hb]; exact h1) h2
      · by_cases e' : j = k
        · subst e'
          have hc := hcr hg
          cases ls with
          | nil => cases e; exact hc
          | cons l2 ls =>
            simp [exec, step, hc] at e
        · refine ih s' t e (step_gone hst hg) ?_ h2
          rw [hb, List.mem_append, List.mem_singleton, not_or]
          exact ⟨h1, fun x => e' x.symm⟩

/-- Calls have returned only after their task ended. -/
structure Waited (n : Nat) (s : St) : Prop where
  inv : Inv n s
  ran : ∀ k, s.frames k = .gone → k ∈ s.begun
  ended : ∀ k i, s.frames k = .gone → s.workers i ≠ .running k
  alive : s.crashed = false

theorem waited_step (h : Waited n s) {l : Label} (hl : step n s l = some t)
    (hp : ∀ k, l = .drop k → k ∈ s.begun ∧ ∀ i, i < n → s.workers i ≠ .running k) : Waited n t := by
  have hi := inv_step h.inv hl
  obtain ⟨e, hb⟩ := step_begun_prefix hl
  have sub : ∀ k, k ∈ s.begun → k ∈ t.begun := fun k hk => by rw [hb]; exact List.mem_append_left _ hk
  have hc := step_alive hl
  have hl0 := hl
  unfold step at hl
  rw [if_neg (by rw [hc]; simp)] at hl
  cases l with
  | call k =>
    simp only at hl
    split at hl
    · cases hl
      have key : ∀ j, upd s.frames k .calling j = .gone → s.frames j = .gone := by
        intro j hj
        by_cases e : j = k
        · subst e; rw [upd_same] at hj; cases hj
        · rwa [upd_other _ _ e] at hj
      exact ⟨hi, fun j hj => h.ran j (key j hj), fun j i hj => h.ended j i (key j hj), h.alive⟩
    · cases hl
  | lock k =>
    simp only at hl
    split at hl
    · cases hl
      have key : ∀ j, upd s.frames k .inside j = .gone → s.frames j = .gone := by
        intro j hj
        by_cases e : j = k
        · subst e; rw [upd_same] at hj; cases hj
        · rwa [upd_other _ _ e] at hj
      exact ⟨hi, fun j hj => h.ran j (key j hj), fun j i hj => h.ended j i (key j hj), h.alive⟩
    · cases hl
  | push k wake =>
    have key : ∀ j, upd s.frames k .pushed j = .gone → s.frames j = .gone := by
      intro j hj
      by_cases e : j = k
      · subst e; rw [upd_same] at hj; cases hj
      · rwa [upd_other _ _ e] at hj
    simp only at hl
    split at hl
    · cases wake with
      | some i =>
        simp only at hl
        split at hl
        · cases hl
          refine ⟨hi, fun j hj => h.ran j (key j hj), fun j i' hj => ?_, h.alive⟩
          show upd s.workers i .ready i' ≠ _
          by_cases e : i' = i
          · subst e; rw [upd_same]; simp
          · rw [upd_other _ _ e]; exact h.ended j i' (key j hj)
        · cases hl
      | none =>
        simp only at hl
        split at hl
        · cases hl
          exact ⟨hi, fun j hj => h.ran j (key j hj), fun j i hj => h.ended j i (key j hj), h.alive⟩
        · cases hl
    · cases hl
  | unlock k =>
    simp only at hl
    split at hl
    · cases hl
      have key : ∀ j, upd s.frames k .leaving j = .gone → s.frames j = .gone := by
        intro j hj
        by_cases e : j = k
        · subst e; rw [upd_same] at hj; cases hj
        · rwa [upd_other _ _ e] at hj
      exact ⟨hi, fun j hj => h.ran j (key j hj), fun j i hj => h.ended j i (key j hj), h.alive⟩
    · cases hl
  | drop k =>
    obtain ⟨p1, p2⟩ := hp k rfl
    have p3 : ∀ i, s.workers i ≠ .running k := by
      intro i hr
      by_cases hin : i < n
      · exact p2 i hin hr
      · rw [h.inv.bound i (by omega)] at hr; cases hr
    simp only at hl
    split at hl
    · cases hl
      refine ⟨hi, fun j hj => ?_, fun j i hj => ?_, ?_⟩
      · by_cases e : j = k
        · subst e; exact p1
        · simp only [upd_other _ _ e] at hj; exact h.ran j hj
      · by_cases e : j = k
        · subst e; exact p3 i
        · simp only [upd_other _ _ e] at hj; exact h.ended j i hj
      · show isRunning n s k = false
        simp only [isRunning, List.any_eq_false, decide_eq_true_eq]
        intro i _
        exact p3 i
    · cases hl
  | poll i =>
    have key : ∀ w : Worker, (∀ k, w ≠ .running k) → ∀ k j, s.frames k = .gone →
        upd s.workers i w j ≠ .running k := by
      intro w hw k j hk
      by_cases e : j = i
      · subst e; rw [upd_same]; exact hw k
      · rw [upd_other _ _ e]; exact h.ended k j hk
    simp only at hl
    split at hl
    · split at hl
      · cases hl; exact ⟨hi, h.ran, key _ (by simp), h.alive⟩
      · split at hl
        · cases hl; exact ⟨hi, h.ran, key _ (by simp), h.alive⟩
        · cases hl; exact ⟨hi, h.ran, key _ (by simp), h.alive⟩
    · cases hl
  | begin i =>
    simp only at hl
    split at hl
    · next k hw =>
      split at hl
      · cases hl
        have hng : s.frames k ≠ .gone := by
          intro hg
          exact not_begun h.inv (.inl (by rw [held_mem h.inv hw]; simp)) (h.ran k hg)
        refine ⟨hi, fun j hj => sub j (h.ran j hj), fun j i' hj => ?_, by simp [hng]⟩
        show upd s.workers i (.running k) i' ≠ .running j
        by_cases e : i' = i
        · subst e
          rw [upd_same]
          intro x
          cases x
          exact hng hj
        · rw [upd_other _ _ e]; exact h.ended j i' hj
      · cases hl
    · cases hl
  | finish i =>
    simp only at hl
    split at hl
    · split at hl
      · cases hl
        refine ⟨hi, h.ran, fun k j hk => ?_, h.alive⟩
        show upd s.workers i .ready j ≠ _
        by_cases e : j = i
        · subst e; rw [upd_same]; simp
        · rw [upd_other _ _ e]; exact h.ended k j hk
      · cases hl
    · cases hl
  | nested i =>
    simp only at hl
    split at hl
    · split at hl
      · cases hl
        refine ⟨hi, h.ran, fun k j hk => ?_, h.alive⟩
        show upd s.workers i .stuck j ≠ _
        by_cases e : j = i
        · subst e; rw [upd_same]; simp
        · rw [upd_other _ _ e]; exact h.ended k j hk
      · cases hl
    · cases hl
  | spurious i =>
    simp only at hl
    split at hl
    · cases hl
      refine ⟨hi, h.ran, fun k j hk => ?_, h.alive⟩
      show upd s.workers i .ready j ≠ _
      by_cases e : j = i
      · subst e; rw [upd_same]; simp
      · rw [upd_other _ _ e]; exact h.ended k j hk
    · cases hl
  | close =>
    simp only at hl
    split at hl
    · cases hl
      refine ⟨hi, h.ran, fun k j hk => ?_, h.alive⟩
      show (if s.workers j = .waiting then Worker.ready else s.workers j) ≠ _
      split
      · simp
      · exact h.ended k j hk
    · cases hl

theorem waited_exec (ls : List Label) : ∀ s t : St, Waited n s → Patient n s ls → exec n s ls = some t → Waited n t := by
  induction ls with
  | nil => intro s t h _ e; cases e; exact h
  | cons l ls ih =>
    intro s t h hp e
    unfold exec at e
    cases hs : step n s l with
    | none => rw [hs] at e; cases e
    | some s' => rw [hs] at e; exact ih s' t (waited_step h hs hp.1) (hp.2 s' hs) e

theorem waited_init (n : Nat) : Waited n init :=
  ⟨inv_init n, fun k hk => by simp [init] at hk, fun k i hk => by simp [init] at hk, rfl⟩

end Verif.Pool
