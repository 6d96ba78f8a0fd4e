import Verif.Lemmas.Pool

/-!
# C50: the thread pool

For every number of workers and every schedule of submits, workers, spurious wake-ups and the shutdown.
-/

namespace Verif.Props

open Verif.Pool Verif.Spec

/-- Tasks are started in the order they were handed over, each at most once. -/
theorem C50_at_most_once (n : Nat) (ls : List Label) (s : St) (h : exec n init ls = some s) :
    s.begun <+: handedOver ls ∧ (handedOver ls).Nodup ∧ s.begun.Nodup := by
  have hi := inv_exec ls _ _ (inv_init n) h
  have e : s.submitted = handedOver ls := by
    have := exec_submitted ls _ _ h
    simpa [init] using this
  exact ⟨e ▸ inv_begun_prefix hi, e ▸ hi.nd, inv_begun_nodup hi⟩

/-- Tasks never overlap: the mutex is held while one runs. -/
theorem C50_one_at_a_time (n : Nat) (ls : List Label) (s : St) (h : exec n init ls = some s) (i j a b : Nat)
    (hi : s.workers i = .running a) (hj : s.workers j = .running b) : i = j ∧ a = b := by
  have hv := inv_exec ls _ _ (inv_init n) h
  have h1 := (hv.work i).1 (by rw [hi]; rfl)
  have h2 := (hv.work j).1 (by rw [hj]; rfl)
  rw [h1] at h2
  cases h2
  rw [hi] at hj
  cases hj
  exact ⟨rfl, rfl⟩

/-- A schedule is finite when the calls, spurious wake-ups and shutdowns in it are: nobody can spin. -/
theorem C50_bounded (n : Nat) (ls : List Label) (s : St) (h : exec n init ls = some s) :
    ls.length ≤ n + 9 * calls ls + 2 * spurious ls + (n + 1) * closes ls := by
  have := exec_work ls [] init s made_init h
  rwa [work_init] at this

/-- No task is forgotten: when a pool with at least one worker, not shut down, and whose tasks do not call back into it,
comes to rest, every task handed over has been started, in order and exactly once.

Missing from the property: that the started task finds its captured state (`C50_valid_partial`), and tasks outstanding at
shutdown (`C50_shutdown_drops`). -/
theorem C50_all_started_partial (n : Nat) (ls : List Label) (s : St) (h : exec n init ls = some s) (hn : 0 < n)
    (hc : s.crashed = false) (hs : s.shutdown = false) (hst : NoNested s) (hq : Quiet n s) :
    s.begun = handedOver ls := by
  have hi := inv_exec ls _ _ (inv_init n) h
  rw [quiet_begun hi hq hc hs hn hst]
  have := exec_submitted ls _ _ h
  simpa [init] using this

/-- While a task is queued, some worker is awake: a wake-up is never lost. -/
theorem C50_no_lost_wakeup (n : Nat) (ls : List Label) (s : St) (h : exec n init ls = some s) (hn : 0 < n)
    (hs : s.shutdown = false) (hq : s.queue ≠ []) :
    ∃ i, i < n ∧ s.workers i ≠ .waiting ∧ s.workers i ≠ .exited :=
  (inv_exec ls _ _ (inv_init n) h).active hs hq hn

/-- Running a task is defined if every `submit` happens to return only after its task has ended.

Missing from the property: `submit` itself does nothing to make that so (`C50_dangling`). -/
theorem C50_valid_partial (n : Nat) (ls : List Label) (s : St) (h : exec n init ls = some s)
    (hp : Patient n init ls) : s.crashed = false :=
  (waited_exec ls _ _ (waited_init n) hp h).alive

/-- The property fails: a task not started when its `submit` returns can only be started with undefined behaviour. -/
theorem C50_dangling (n : Nat) (as bs : List Label) (s t : St) (k : Nat) (h : exec n init as = some s)
    (hg : s.frames k = .gone) (hk : k ∉ s.begun) (hb : exec n s bs = some t) (hr : k ∈ t.begun) :
    exec n init (as ++ bs) = some t ∧ t.crashed = true :=
  ⟨exec_append n as bs _ _ _ h hb, exec_dangling bs s t hb hg hk hr⟩

/-- The ordinary course of events, in a pool of any size: one task is submitted, the call returns, a worker starts it. -/
theorem C50_dangling_ordinary (n : Nat) (hn : 0 < n) :
    ∃ s t : St, exec n init [.call 0, .lock 0, .push 0 none, .unlock 0, .drop 0] = some s ∧ s.crashed = false ∧
      s.frames 0 = .gone ∧ exec n s [.poll 0, .begin 0] = some t ∧ t.crashed = true := by
  have hw : ∀ m q f sh c su b, noneWaiting n ⟨m, q, f, fun _ => .ready, sh, c, su, b⟩ = true := by
    intros
    rw [noneWaiting_iff]
    simp
  have hr : ∀ m q f sh c su b k, isRunning n ⟨m, q, f, fun _ => .ready, sh, c, su, b⟩ k = false := by
    intros
    simp [isRunning]
  refine ⟨⟨none, [0], fun j => if j = 0 then .gone else .none, init.workers, false, false, [0], []⟩,
    ⟨some (.worker 0), [], fun j => if j = 0 then .gone else .none, fun j => if j = 0 then .running 0 else .ready,
      false, true, [0], [0]⟩, ?_, rfl, rfl, ?_, rfl⟩
  · have f : ∀ a b : Frame, upd (upd (fun _ => Frame.none) 0 a) 0 b = upd (fun _ => Frame.none) 0 b := by
      intro a b; funext j; simp only [upd]; split <;> rfl
    have g : (fun j : Nat => if j = 0 then Frame.gone else Frame.none) = upd (fun _ => Frame.none) 0 .gone := rfl
    simp only [exec, step, init, Bool.false_eq_true, if_false, and_self, if_true, upd_same, pushed, f, g, hw, hr,
      List.nil_append]
  · have f : ∀ a b : Worker, upd (upd (fun _ => Worker.ready) 0 a) 0 b = upd (fun _ => Worker.ready) 0 b := by
      intro a b; funext j; simp only [upd]; split <;> rfl
    have g : (fun j : Nat => if j = 0 then Worker.running 0 else Worker.ready) =
      upd (fun _ => Worker.ready) 0 (.running 0) := rfl
    simp only [exec, step, init, Bool.false_eq_true, if_false, hn, and_self, if_true, upd_same, f, g, decide_true,
      List.nil_append]

/-- The property fails: a task queued when the pool shuts down is never started. -/
theorem C50_shutdown_drops (n : Nat) (as bs : List Label) (s t : St) (k : Nat) (h : exec n init as = some s)
    (hs : s.shutdown = true) (hk : k ∈ s.queue) (hb : exec n s bs = some t) : k ∉ t.begun :=
  exec_shutdown_queue bs s t (inv_exec as _ _ (inv_init n) h) hb hs hk

/-- The property fails: after a task has called `submit` itself, no task is ever started again. -/
theorem C50_nested_submit_deadlock (n : Nat) (as bs : List Label) (s t : St) (i : Nat) (h : exec n init as = some s)
    (hi : s.workers i = .stuck) (hb : exec n s bs = some t) : t.begun = s.begun ∧ t.workers i = .stuck :=
  have := exec_stuck bs s t (inv_exec as _ _ (inv_init n) h) hb hi
  ⟨this.2, this.1⟩

/-! ### The hypotheses can be met -/

/-- Two workers, two tasks, the first worker asleep when the first task comes; both tasks end before their calls return. -/
def goodRun : List Label :=
  [.poll 0, .call 7, .call 3, .lock 7, .push 7 (some 0), .unlock 7, .poll 1, .begin 1, .finish 1, .drop 7,
   .lock 3, .push 3 none, .unlock 3, .poll 0, .begin 0, .finish 0, .drop 3, .poll 0, .poll 1]

example : (exec 2 init goodRun).map (fun s => (s.begun, s.crashed, s.shutdown, s.queue)) =
    some ([7, 3], false, false, []) := by decide

example : (exec 2 init goodRun).map (fun s => (s.workers 0, s.workers 1)) = some (.waiting, .waiting) := by decide

/-- Two submits are under way, a worker was chosen by `notify_one`: tasks are queued in an active state. -/
example : (exec 2 init [.call 7, .poll 0, .poll 1, .lock 7, .push 7 (some 1)]).map
    (fun s => (s.queue, s.workers 0, s.workers 1, s.shutdown)) = some ([7], .waiting, .ready, false) := by decide

example : Patient 1 init [.call 7, .lock 7, .push 7 none, .unlock 7, .poll 0, .begin 0, .finish 0, .drop 7] := by
  refine ⟨by simp, fun _ h => ?_⟩; cases h
  refine ⟨by simp, fun _ h => ?_⟩; cases h
  refine ⟨by simp, fun _ h => ?_⟩; cases h
  refine ⟨by simp, fun _ h => ?_⟩; cases h
  refine ⟨by simp, fun _ h => ?_⟩; cases h
  refine ⟨by simp, fun _ h => ?_⟩; cases h
  refine ⟨by simp, fun _ h => ?_⟩; cases h
  refine ⟨?_, fun _ _ => trivial⟩
  intro k hk
  cases hk
  refine ⟨by decide, fun i hi => ?_⟩
  have : i = 0 := by omega
  subst this
  decide

/-- A pool at rest after a task. -/
def atRest : St :=
  ⟨none, [], upd (fun _ => .none) 7 .gone, upd (fun _ => .ready) 0 .waiting, false, false, [7], [7]⟩

example : exec 1 init [.call 7, .lock 7, .push 7 none, .unlock 7, .poll 0, .begin 0, .finish 0, .drop 7, .poll 0] =
    some atRest := by
  have f : ∀ a b : Frame, upd (upd (fun _ => Frame.none) 7 a) 7 b = upd (fun _ => Frame.none) 7 b := by
    intro a b; funext j; simp only [upd]; split <;> rfl
  have g : ∀ a b : Worker, upd (upd (fun _ => Worker.ready) 0 a) 0 b = upd (fun _ => Worker.ready) 0 b := by
    intro a b; funext j; simp only [upd]; split <;> rfl
  simp [exec, step, init, upd_same, pushed, f, g, noneWaiting, isRunning, atRest, List.range, List.range.loop]

example : Quiet 1 atRest ∧ NoNested atRest := by
  have hf : ∀ k, atRest.frames k = .none ∨ atRest.frames k = .gone := by
    intro k
    by_cases e : k = 7
    · subst e; right; rfl
    · left; simp [atRest, upd, e]
  have hw : ∀ i, atRest.workers i = if i = 0 then .waiting else .ready := fun _ => rfl
  refine ⟨fun l hl => ?_, fun i => ?_⟩
  · cases l with
    | lock k => rcases hf k with h | h <;> simp [step, h]
    | push k w => rcases hf k with h | h <;> simp [step, h]
    | unlock k => rcases hf k with h | h <;> simp [step, h]
    | poll i =>
      by_cases e : i = 0
      · subst e; rfl
      · simp [step, e]
    | begin i => by_cases e : i = 0 <;> simp [step, hw, e]
    | finish i => by_cases e : i = 0 <;> simp [step, hw, e]
    | _ => cases hl
  · by_cases e : i = 0 <;> simp [hw, e]

/-- A shutdown with a task queued; a task that calls back. -/
example : (exec 1 init [.call 7, .lock 7, .push 7 none, .unlock 7, .close, .poll 0]).map
    (fun s => (s.shutdown, s.queue, s.workers 0)) = some (true, [7], .exited) := by decide

example : (exec 1 init [.call 7, .lock 7, .push 7 none, .unlock 7, .call 8, .poll 0, .begin 0, .nested 0]).map
    (fun s => (s.workers 0, s.begun)) = some (.stuck, [7]) := by decide

end Verif.Props
