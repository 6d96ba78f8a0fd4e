import Verif.Vocab

/-!
# Objects of user classes handed to an int list

Their special methods run Python code, which may change the list. The code is a function on the state `σ` of the list (its
elements; for a linked list also its nodes): it finds `l` and leaves `g l`. Pure data, shared by the specification and the
model.
-/

namespace Verif.Foreign

/-- An object whose `__index__` runs code: the elements it leaves, and the int it answers or the exception it raises.
(Vocabulary: objects of user classes; no code of /repo.) -/
structure Live (σ : Type := List Int) where
  run : σ → σ × Except Exc Int

/-- The answers of an iterator to `__next__`, or of a sequence to `__getitem__(0)`, `__getitem__(1)`, …: the end
(StopIteration, IndexError), another exception, or an item. What follows may depend on what the code found: `k` gets
the
state at the time of the call. (Vocabulary: objects of user classes; no code of /repo.) -/
inductive Feed (σ : Type := List Int)
  | done (g : σ → σ)
  | fail (g : σ → σ) (e : Exc)
  | item (g : σ → σ) (x : Live σ) (k : σ → Feed σ)

/-- A sequence of a user class: `__len__`, then its items. (Vocabulary: objects of user classes; no code of /repo.) -/
structure Seq (σ : Type := List Int) where
  len : σ → σ × Except Exc Nat
  items : σ → Feed σ

/-- A slice of user objects; `none` is `None`. (Vocabulary: objects of user classes; no code of /repo.) -/
structure LSlice (σ : Type := List Int) where
  start : Option (Live σ)
  stop : Option (Live σ)
  step : Option (Live σ)

end Verif.Foreign
