/-!
# ScheduledThreadPool

Model of utils/thread/ScheduledThreadPool.h and .cpp: all interleavings of any number of `submit` calls, `n` workers and
the destructor, as a step function over labels (who moves). A submit call is named by a number and used once; its task is
named after it. The task captures the local variable `task` of `submit` by reference (h 29, 42), which is alive until the
call has returned. Running a task whose `submit` has returned, or returning from `submit` while the task runs, is
undefined behaviour: the state is marked `crashed` and nothing follows.

Simplified: reading the predicate, popping and going to sleep happen under the mutex and are one step; `notify_one` wakes
one sleeping worker if there is one, at the moment of the call; setting `shutdown` and `notify_all` (cpp 39-45) are one step; tasks do
nothing that concerns the pool except, possibly, calling `submit` themselves. A worker stuck in such a call never comes back to its
task, so that the return of the `submit` that made this task is not counted as undefined behaviour then.
-/

namespace Verif.Pool

/-- Owner of the mutex. (ScheduledThreadPool.h 53.) -/
inductive Who
  | submit (k : Nat)
  | worker (i : Nat)
  deriving DecidableEq, Repr

/-- Progress of a `submit` call (h 23-48). -/
inductive Frame
  | none       -- not called yet
  | calling    -- `task` constructed (25-26, 38-39), mutex wanted
  | inside     -- mutex taken (28, 41)
  | pushed     -- task queued, a worker notified (29-32, 42-45), mutex still held
  | leaving    -- mutex released at scope exit, `task` not yet destroyed
  | gone       -- returned
  deriving DecidableEq, Repr

/-- Progress of a worker (cpp 15-30). -/
inductive Worker
  | ready               -- wants the mutex (17), or woken up in `wait` (18)
  | waiting             -- asleep in `wait`
  | holding (k : Nat)   -- popped task `k` (24-25), mutex held
  | running (k : Nat)   -- in `task()` (27), mutex still held
  | stuck               -- the task called `submit`, which wants the mutex this thread holds
  | exited              -- returned (21)
  deriving DecidableEq, Repr

/-- State; `submitted` and `begun` record the order in which tasks were queued and started. (ScheduledThreadPool.h
51-55.) -/
structure St where
  mutex : Option Who
  queue : List Nat
  frames : Nat → Frame
  workers : Nat → Worker
  shutdown : Bool
  crashed : Bool
  submitted : List Nat
  begun : List Nat

/-- Who moves. Scaffolding of the model, no code of /repo. -/
inductive Label
  | call (k : Nat)
  | lock (k : Nat)
  | push (k : Nat) (wake : Option Nat)   -- `wake`: the worker `notify_one` chooses
  | unlock (k : Nat)
  | drop (k : Nat)
  | poll (i : Nat)
  | begin (i : Nat)
  | finish (i : Nat)
  | nested (i : Nat)
  | spurious (i : Nat)
  | close
  deriving DecidableEq, Repr

/-- Pointwise update. Scaffolding of the model, no code of /repo. -/
def upd {α : Type} (f : Nat → α) (i : Nat) (v : α) : Nat → α := fun j => if j = i then v else f j

/-- The constructor (cpp 9-13, 31-37): `n` workers, all about to take the mutex. -/
def init : St := ⟨none, [], fun _ => .none, fun _ => .ready, false, false, [], []⟩

/-- No worker sleeps. Scaffolding of the model, no code of /repo. -/
def noneWaiting (n : Nat) (s : St) : Bool := (List.range n).all fun i => decide (s.workers i ≠ .waiting)

/-- Some worker runs task `k`. Scaffolding of the model, no code of /repo. -/
def isRunning (n : Nat) (s : St) (k : Nat) : Bool := (List.range n).any fun i => decide (s.workers i = .running k)

/-- h 29-32, 42-45: queue the task and notify. -/
def pushed (s : St) (k : Nat) : St :=
  { s with queue := s.queue ++ [k], submitted := s.submitted ++ [k], frames := upd s.frames k .pushed }

/-- One step; `none` if it is not possible. (ScheduledThreadPool.h 24-48, ScheduledThreadPool.cpp 15-29, 39-51.) -/
def step (n : Nat) (s : St) (l : Label) : Option St :=
  if s.crashed then none
  else
    match l with
    | .call k =>
      if s.frames k = .none ∧ s.shutdown = false then some { s with frames := upd s.frames k .calling } else none
    | .lock k =>
      if s.frames k = .calling ∧ s.mutex = none then
        some { s with frames := upd s.frames k .inside, mutex := some (.submit k) }
      else none
    | .push k wake =>
      if s.frames k = .inside then
        match wake with
        | some i =>
          if i < n ∧ s.workers i = .waiting then some { pushed s k with workers := upd s.workers i .ready } else none
        | none => if noneWaiting n s then some (pushed s k) else none
      else none
    | .unlock k =>
      if s.frames k = .pushed then some { s with frames := upd s.frames k .leaving, mutex := none } else none
    | .drop k =>
      if s.frames k = .leaving then
        some { s with frames := upd s.frames k .gone, crashed := isRunning n s k }
      else none
    | .poll i =>
      if i < n ∧ s.workers i = .ready ∧ s.mutex = none then
        if s.shutdown then some { s with workers := upd s.workers i .exited }
        else
          match s.queue with
          | [] => some { s with workers := upd s.workers i .waiting }
          | k :: q =>
            some { s with workers := upd s.workers i (.holding k), queue := q, mutex := some (.worker i) }
      else none
    | .begin i =>
      match s.workers i with
      | .holding k =>
        if i < n then
          some { s with workers := upd s.workers i (.running k), begun := s.begun ++ [k],
                        crashed := decide (s.frames k = .gone) }
        else none
      | _ => none
    | .finish i =>
      match s.workers i with
      | .running _ => if i < n then some { s with workers := upd s.workers i .ready, mutex := none } else none
      | _ => none
    | .nested i =>
      match s.workers i with
      | .running _ => if i < n then some { s with workers := upd s.workers i .stuck } else none
      | _ => none
    | .spurious i =>
      if i < n ∧ s.workers i = .waiting then some { s with workers := upd s.workers i .ready } else none
    | .close =>
      if s.mutex = none ∧ s.shutdown = false then
        some { s with shutdown := true, workers := fun i => if s.workers i = .waiting then .ready else s.workers i }
      else none

/-- A schedule. Scaffolding of the model, no code of /repo. -/
def exec (n : Nat) (s : St) : List Label → Option St
  | [] => some s
  | l :: ls =>
    match step n s l with
    | some s' => exec n s' ls
    | none => none

end Verif.Pool
