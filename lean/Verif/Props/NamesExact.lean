import Verif.Lemmas.NamesExact

/-!
# C43: exactly the histories that are safe
-/

namespace Verif.Props

open Verif Verif.Spec

/-- C43, exactly: in a history every object the client has a name for is alive at every moment (and so no event touches
a freed object) if and only if at every moment, for each such object that is not immortal, the names made since the
start, the references there were, and the references added by hand less the names made by `as_object` leave at least
one. -/
theorem C43_exact (h : Heap) (own own' : Obj → Nat) (es : List REvent) (hn : Names own es own') :
    (∀ k ownk, Names own (es.take k) ownk →
      ∃ hk, UnsafeObj.play h (es.take k) = some hk ∧ ∀ o, 0 < ownk o → hk.live o = true) ↔
    ∀ k ownk, Names own (es.take k) ownk → ∀ o, h.imm o = false → 0 < ownk o →
      0 < (ownk o : Int) - own o + h.rc o + credit o (es.take k) :=
  UnsafeObj.names_alive es own own' h hn

/-- With one name and one reference, `as_object` and dropping the result is too much; with a second reference held
elsewhere it is not, the second time it is. -/
example : ∃ own', Names (fun _ => 1) [.asObject (.int 16), .drop 16, .asObject (.int 16), .drop 16] own' :=
  ⟨_, .asObject (o := 16) rfl (by decide) (.drop (by decide) (.asObject (o := 16) rfl (by decide) (.drop (by decide) (.nil _))))⟩
example : (1 : Int) - 1 + 1 + credit 16 [.asObject (.int 16), .drop 16] = 0 := by decide
example : (1 : Int) - 1 + 2 + credit 16 [.asObject (.int 16), .drop 16] = 1 := by decide

end Verif.Props
