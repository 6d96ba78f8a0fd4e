import Verif.VocabText

/-!
# `repr` of Python's lists

Objects are lists or other objects; the others have a `__repr__` of their own, which may change lists.
-/

namespace Verif.Text.Spec

/-- `__repr__` of the objects that are not lists. -/
abbrev Code := Nat → View → View × Answer

/-- The elements one after the other, separated by commas, for as long as the list has one more; `none`: `fuel` elements do
not suffice. -/
def loop (rep : Nat → View → Option (View × Answer)) (o : Nat) : Nat → Nat → Str → View → Option (View × Answer)
  | 0, _, _, _ => none
  | fuel + 1, i, text, v =>
    match (v o)[i]? with
    | none => some (v, .ok (text ++ "]".toList))
    | some x =>
      match rep x v with
      | none => none
      | some (v, .error e) => some (v, .error e)
      | some (v, .ok t) => loop rep o fuel (i + 1) (text ++ (if i = 0 then "" else ", ").toList ++ t) v

/-- `repr(o)` with `limit` nested calls left; `busy` are the lists whose `repr` is under way. -/
def repr (isList : Nat → Bool) (code : Code) (fuel : Nat) : Nat → List Nat → Nat → View → Option (View × Answer)
  | 0, _, _, v => some (v, .error .recursion)
  | limit + 1, busy, o, v =>
    if isList o then
      if o ∈ busy then some (v, .ok "[...]".toList)
      else loop (repr isList code fuel limit (o :: busy)) o fuel 0 "[".toList v
    else some (code o v)

/-- Strings joined by commas in brackets. -/
def bracketed (ts : List Str) : Str := "[".toList ++ (ts.intersperse ", ".toList).flatten ++ "]".toList

/-- No list contains itself, directly or through others. -/
def Layered (isList : Nat → Bool) (rank : Nat → Nat) (v : View) : Prop :=
  ∀ o x, isList o = true → x ∈ v o → isList x = true → rank x < rank o

/-- `y` is in the list `x`, directly or through other lists. -/
inductive Inside (isList : Nat → Bool) (v : View) : Nat → Nat → Prop
  | here {x y} : isList x = true → y ∈ v x → Inside isList v x y
  | deeper {x y z} : isList x = true → y ∈ v x → Inside isList v y z → Inside isList v x z

/-- `o` is, or contains, a list that contains itself. -/
def Cyclic (isList : Nat → Bool) (v : View) (o : Nat) : Prop :=
  ∃ l, (l = o ∨ Inside isList v o l) ∧ Inside isList v l l

end Verif.Text.Spec
