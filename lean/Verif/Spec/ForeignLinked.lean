import Verif.Spec.Foreign
import Verif.Model.StdList

/-! # Python code inside a call of a linked list: well-behaved code, and code that empties the list -/

namespace Verif.Foreign

variable {σ α : Type}

/-- Code that removes no node: those it found are still there, in the same order. -/
def KeepsNodes (g : LState α → LState α) : Prop := ∀ s : LState α, s.ids.Sublist (g s).ids

/-- A conversion that removes no node. -/
def Live.KeepsNodes (x : Live (LState α)) : Prop := Foreign.KeepsNodes fun s => (x.run s).1

/-- Neither fetching nor converting an item removes a node. -/
def Feed.KeepsNodes : Feed (LState α) → Prop
  | .done g => Foreign.KeepsNodes g
  | .fail g _ => Foreign.KeepsNodes g
  | .item g x k => Foreign.KeepsNodes g ∧ x.KeepsNodes ∧ ∀ s, (k s).KeepsNodes

/-- None of the methods of the sequence removes a node. -/
structure Seq.KeepsNodes (v : Seq (LState α)) : Prop where
  len : Foreign.KeepsNodes fun s => (v.len s).1
  items : ∀ s, (v.items s).KeepsNodes

/-- Every item answers with a signed word of 64 bits. -/
def Feed.Answers : Feed σ → Prop
  | .done _ => True
  | .fail _ _ => True
  | .item _ x k => (∀ s, ∃ v, (x.run s).2 = .ok v ∧ -(2 ^ 63) ≤ v ∧ v < 2 ^ 63) ∧ ∀ s, (k s).Answers

/-- An object whose `__index__` empties the list and answers `v`. -/
def Live.emptying (v : Int) : Live (LState α) := ⟨fun s => (s.clear, .ok v)⟩

/-- A sequence of length `n` whose first `__getitem__` empties the list. -/
def Seq.emptying (n : Nat) (v : Int) : Seq (LState α) :=
  ⟨fun s => (s, .ok n), fun _ => .item LState.clear (.of v) fun _ => .done id⟩

end Verif.Foreign
