import Verif.Spec.Store
import Verif.Model.Threads

/-!
# Specification for C66: calls of several threads, one after the other

With Python's own lists, each call is one step for all other threads. `Serial` says what threads may then learn from a schedule:
a call acts on the lists when it begins, and its answer comes some time later.
-/

namespace Verif.Spec

open Verif.Store Verif.Threads

/-- The event is an operation on the list `c`, reads it, or reads or writes through one of its memoryviews. -/
def Uses (c : Nat) (w : World) : Ev → Prop
  | .create o _ _ => o = c
  | .call o _ _ => o = c
  | .callOn o p _ => o = c ∨ p = c
  | .copy o d => o = c ∨ d = c
  | .drop o => o = c
  | .read id _ => (w.views id).map (·.of) = some c
  | .write id _ _ => (w.views id).map (·.of) = some c
  | .bytes o _ => o = c
  | .view _ _ => False
  | .release _ => False

/-- The list `o` reversed in its storage. -/
def reverseNow (w : World) (o : Nat) : World :=
  match w.objs o with
  | some ⟨some b, n⟩ =>
    match w.mem b with
    | some cs => { w with mem := upd w.mem b (some ((cs.take n).reverse ++ cs.drop n)) }
    | none => w
  | _ => w

/-- Memory, and the answers that calls in progress are going to give. -/
structure Serving where
  w : World
  answers : Nat → Option Ret

/-- What the caller learns from a call that is one step. -/
def learnt : Out World Ans → Option (World × Obs)
  | .ok w a => some (w, .ret a)
  | .exc w e => some (w, .exc e)
  | .pending w a e => some (w, .pending a e)
  | .ub _ => none

/-- One step of a schedule when every call acts at once. -/
def Serial1 (cfg : Cfg) (K : Kind) (grow : Nat → Nat → Nat) (a : Serving) (x : Obs) (a' : Serving) : Act → Prop
  | .call e => learnt (Store.step cfg K grow a.w e) = some (a'.w, x) ∧ a'.answers = a.answers
  | .reverse t o => x = .quiet ∧ a' = ⟨reverseNow a.w o, upd a.answers t (some .none)⟩ ∧ ∃ l, contents a.w o = some l ∧
      contents a'.w o = some l.reverse ∧ ∀ p, p ≠ o → contents a'.w p = contents a.w p
  | .mul t o n => x = .quiet ∧ ∃ l, contents a.w o = some l ∧
      a' = ⟨a.w, upd a.answers t (some (.newList (List.replicate n l).flatten))⟩
  | .imul t o n => x = .quiet ∧ ∃ l, contents a.w o = some l ∧ a'.answers = upd a.answers t (some .self) ∧
      contents a'.w o = some (List.replicate n l).flatten ∧ ∀ p, p ≠ o → contents a'.w p = contents a.w p
  | .tick t => (x = .quiet ∧ a' = a) ∨
      ∃ r, a.answers t = some r ∧ x = .ret (.ret r) ∧ a' = ⟨a.w, upd a.answers t none⟩

/-- A schedule when every call acts at once. -/
def Serial (cfg : Cfg) (K : Kind) (grow : Nat → Nat → Nat) : Serving → List Act → List Obs → Serving → Prop
  | a, [], [], a' => a' = a
  | a, c :: cs, x :: xs, a' => ∃ a1, Serial1 cfg K grow a x a1 c ∧ Serial cfg K grow a1 cs xs a'
  | _, _, _, _ => False

/-- The list a call in progress works on. -/
def worksOn : Task → Nat
  | .rev o _ => o
  | .mul o _ _ _ _ => o
  | .imul o _ _ => o

/-- While a list is being reversed no other thread uses it, and while it is being repeated no other thread changes it. A thread
makes one call at a time, of a list that exists; `*=` with 1 only (0 keeps the lock, and see C12). -/
def Exclusive1 (s : State) : Act → Prop
  | .call e => ∀ t k, s.tasks t = some k → ¬ Touches (worksOn k) s.w e ∧ ∀ o r, k = .rev o r → ¬ Uses o s.w e
  | .reverse t o => s.tasks t = none ∧ s.w.objs o ≠ none ∧ ∀ t' k, s.tasks t' = some k → worksOn k ≠ o
  | .mul t o _ => s.tasks t = none ∧ s.w.objs o ≠ none ∧ ∀ t' r, s.tasks t' ≠ some (.rev o r)
  | .imul t o n => n = 1 ∧ s.tasks t = none ∧ s.w.objs o ≠ none ∧ ∀ t' r, s.tasks t' ≠ some (.rev o r)
  | .tick _ => True

/-- The same for a whole schedule. -/
def Exclusive (cfg : Cfg) (K : Kind) (grow : Nat → Nat → Nat) : State → List Act → Prop
  | _, [] => True
  | s, a :: as =>
    Exclusive1 s a ∧
    match Threads.step cfg K grow s a with
    | .error _ => True
    | .ok (s', _) => Exclusive cfg K grow s' as

end Verif.Spec
