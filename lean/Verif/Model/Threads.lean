import Verif.Model.Store

/-!
# Methods that release the interpreter lock

`reverse`, `*` and `*=` of the array lists run between `Py_BEGIN_ALLOW_THREADS` and `Py_END_ALLOW_THREADS` (IntArrayList.cpp
804-809, 846-855, 901-903; BigIntArrayList.cpp 806-811, 848-857, 903-905), so that other threads execute Python code, calls on
the same list included, between any two of their memory accesses. Sorting also does; see C37.

Lists live in the memory of `Model/Store.lean`. A schedule says which thread goes on; calls that keep the lock are one step. One
access is one load or store instruction of the source. Simplified: accesses happen one after the other (no weaker memory), and
the alignment faults of `*` are left to C11.
-/

namespace Verif.Threads

open Verif.Store

variable {ν : Type}

/-! ## `reverse` in progress -/

/-- What the registers `Lower` and `Upper` hold within one round of a loop of `qReverse`. (qreverse.hpp 570-591.) -/
inductive Reg (ν : Type)
  | idle
  | lower (a : List ν)
  | both (a b : List ν)
  | half (a : List ν)
  deriving DecidableEq, Repr

/-- `qReverse(data, count)` in progress: rounds still to do, each at element `i` with `W` elements per register.
(qreverse.hpp 556-835.) -/
structure Rev (ν : Type) where
  blk : Option Nat
  count : Nat
  todo : List (Nat × Nat)
  reg : Reg ν
  deriving DecidableEq, Repr

/-- The rounds of `qReverse` from element `i` on: for each width `W` that is enabled, `j` from `i / W` to `count / 2 / W`, and
single elements at the end (qreverse.hpp 556-695 for four bytes, 699-835 for eight bytes). -/
def rounds (count : Nat) : List (Bool × Nat) → Nat → List (Nat × Nat)
  | [], i => (List.range (count / 2 - i)).map fun j => (i + j, 1)
  | (on, W) :: ws, i =>
    let k := if on then count / 2 / W - i / W else 0
    (List.range k).map (fun j => (i + j * W, W)) ++ rounds count ws (i + k * W)

/-- Elements per register with AVX-512, AVX2 and SSSE3. -/
def widths (cfg : Cfg) : Kind → List (Bool × Nat)
  | .i32 => [(cfg.avx512, 16), (cfg.avx2, 8), (cfg.ssse3, 4)]
  | .i64 => [(cfg.avx512, 8), (cfg.avx2, 4), (cfg.ssse3, 2)]

/-- Store `xs` at `i`. (The stores of qreverse.hpp 570-591.) -/
def overwrite (cs : List ν) (i : Nat) (xs : List ν) : List ν := cs.take i ++ xs ++ cs.drop (i + xs.length)

/-- One access (qreverse.hpp 570-591 and the other loop bodies): load lower, load upper, store the upper elements in opposite
order at the lower place, and the lower ones at the upper place. The reversal of a register is that of C39. `none` if the access
leaves the block. -/
def Rev.access (t : Rev ν) (cs : List ν) : Option (Rev ν × List ν) :=
  match t.todo with
  | [] => none
  | (i, W) :: rest =>
    let h := t.count - i - W
    match t.reg with
    | .idle => if i + W ≤ cs.length then some ({ t with reg := .lower ((cs.drop i).take W) }, cs) else none
    | .lower a => if h + W ≤ cs.length then some ({ t with reg := .both a ((cs.drop h).take W) }, cs) else none
    | .both a b => if i + W ≤ cs.length then some ({ t with reg := .half a }, overwrite cs i b.reverse) else none
    | .half a => if h + W ≤ cs.length then some ({ t with todo := rest, reg := .idle }, overwrite cs h a.reverse) else none

/-! ## Threads -/

/-- A call in progress. (IntArrayList.cpp 800-809, 843-855, 901-903.) -/
inductive Task
  /-- `reverse` (901-903): storage and size were looked up at the beginning. -/
  | rev (o : Nat) (r : Rev Int)
  /-- `l * n` (800-809): the size was looked up at the beginning, the storage at the start of each copy. `acc` is what the new
  list holds so far. -/
  | mul (o size n : Nat) (blk : Option Nat) (acc : List Int)
  /-- `l *= n` (843-855): the size was looked up at the beginning. -/
  | imul (o size n : Nat)
  deriving DecidableEq, Repr

/-- Memory and the calls in progress, by thread. Scaffolding of the model, no code of /repo. -/
structure State where
  w : World
  tasks : Nat → Option Task

/-- What the scheduler picks: a call that keeps the lock, the beginning of one that does not by thread `t`, or the
next access of
thread `t`. Scaffolding of the model, no code of /repo. -/
inductive Act
  | call (e : Ev)
  | reverse (t o : Nat)
  | mul (t o n : Nat)
  | imul (t o n : Nat)
  | tick (t : Nat)
  deriving DecidableEq, Repr

/-- What a thread learns: nothing yet, an answer, an exception, both. Scaffolding of the model, no code of /repo. -/
inductive Obs
  | quiet
  | ret (a : Ans)
  | exc (e : Exc)
  | pending (a : Ans) (e : Exc)
  deriving DecidableEq, Repr

/-- `self->vector.resize(n)` in the block of `o` or a new one. (IntArrayList.cpp 847.) -/
def resized (grow : Nat → Nat → Nat) (w : World) (o : Nat) (v : Vec) (cs : List Int) (n : Nat) : World :=
  put grow w o v cs ((cs.take v.size).take n ++ List.replicate (n - v.size) 0) (max n v.size)

/-- The next access of a call in progress, or its end. (IntArrayList.cpp 804-809, 846-855, 901-903.) -/
def tick (grow : Nat → Nat → Nat) (s : State) (t : Nat) : Except UB (State × Obs) :=
  match s.tasks t with
  | none => .ok (s, .quiet)
  | some (.rev o r) =>
    if r.todo = [] then .ok (⟨s.w, upd s.tasks t none⟩, .ret (.ret .none))
    else
      match r.blk with
      | none => .error .nullDeref
      | some b =>
        match s.w.mem b with
        | none => .error .useAfterFree
        | some cs =>
          match r.access cs with
          | none => .error .outOfBounds
          | some (r', cs') => .ok (⟨{ s.w with mem := upd s.w.mem b (some cs') }, upd s.tasks t (some (.rev o r'))⟩, .quiet)
  | some (.mul o size n blk acc) =>
    if acc.length = size * n then .ok (⟨s.w, upd s.tasks t none⟩, .ret (.ret (.newList acc)))
    else
      match s.w.objs o with
      | none => .error .useAfterFree
      | some v =>
        let p := if acc.length % size = 0 then v.blk else blk
        match p with
        | none => .error .nullDeref
        | some b =>
          match s.w.mem b with
          | none => .error .useAfterFree
          | some cs =>
            match cs[acc.length % size]? with
            | none => .error .outOfBounds
            | some x => .ok (⟨s.w, upd s.tasks t (some (.mul o size n p (acc ++ [x])))⟩, .quiet)
  | some (.imul o size n) =>
    match s.w.objs o with
    | none => .error .useAfterFree
    | some v =>
      match cells s.w v with
      | none => .error .useAfterFree
      | some cs =>
        if n ≤ 1 ∨ size = 0 then .ok (⟨resized grow s.w o v cs (size * n), upd s.tasks t none⟩, .ret (.ret .self))
        else .error .outOfBounds                              -- C12: the copies are stored behind the block

/-- One step of the schedule. (IntArrayList.cpp 785-809, 833-855, 898-903; the other calls in Model/Store.) -/
def step (cfg : Cfg) (K : Kind) (grow : Nat → Nat → Nat) (s : State) : Act → Except UB (State × Obs)
  | .call e =>
    match Store.step cfg K grow s.w e with
    | .ok w a => .ok (⟨w, s.tasks⟩, .ret a)
    | .exc w e => .ok (⟨w, s.tasks⟩, .exc e)
    | .pending w a e => .ok (⟨w, s.tasks⟩, .pending a e)
    | .ub u => .error u
  | .reverse t o =>
    match s.w.objs o with
    | none => .error .useAfterFree
    | some v => .ok (⟨s.w, upd s.tasks t (some (.rev o ⟨v.blk, v.size, rounds v.size (widths cfg K) 0, .idle⟩))⟩, .quiet)
  | .mul t o n =>
    match s.w.objs o with
    | none => .error .useAfterFree
    | some v => .ok (⟨s.w, upd s.tasks t (some (.mul o v.size n none []))⟩, .quiet)
  | .imul t o n =>
    match s.w.objs o with
    | none => .error .useAfterFree
    | some v => .ok (⟨s.w, upd s.tasks t (some (.imul o v.size n))⟩, .quiet)
  | .tick t => tick grow s t

/-- A schedule, and what was learnt at each step. Scaffolding of the model, no code of /repo. -/
def run (cfg : Cfg) (K : Kind) (grow : Nat → Nat → Nat) : State → List Act → Except UB (State × List Obs)
  | s, [] => .ok (s, [])
  | s, a :: as =>
    match step cfg K grow s a with
    | .error u => .error u
    | .ok (s, x) =>
      match run cfg K grow s as with
      | .error u => .error u
      | .ok (s, xs) => .ok (s, x :: xs)

/-- No list and nothing in progress. Scaffolding of the model, no code of /repo. -/
def start : State := ⟨Store.start, fun _ => none⟩

end Verif.Threads
