import Verif.VocabReady

/-!
# Attributes do not depend on the past
-/

namespace Verif.Ready

/-- What a program should see: attributes are found whenever the class has them, and a list takes no new ones. -/
def expected (A : Attrs) (c : Cls) : Event → Seen
  | .slot _ | .subclass | .abstract | .concrete => .done
  | .call name _ | .fetch name => if A.ofList c name then .found else .attributeError
  | .test name | .special name => if A.ofList c name then .found else .absent
  | .assign _ => .attributeError
  | .ofClass name => if A.ofClass c name then .found else .attributeError

/-- The call is compiled to the instruction for method calls: without stars, before Python 3.11 also without keywords. -/
def Direct (py311 : Bool) : Form → Bool
  | .plain => true
  | .keywords => py311
  | .starred => false

/-- Steps after which the class is prepared. (Lists have no hash; the hash of other objects is that of `object`.) -/
def Prepares (py311 : Bool) (c : Cls) : Event → Bool
  | .call _ f => Direct py311 f
  | .special _ | .ofClass _ | .subclass => true
  | .slot .hash => match c with
    | .list _ => false
    | .tool _ => true
  | _ => false

/-- A step that prepares the class is in the history. -/
def Prepared (py311 : Bool) (h : History) (c : Cls) : Prop := ∃ e, (c, e) ∈ h ∧ Prepares py311 c e = true

/-- Steps that go wrong if the class is not prepared. -/
def Needs (A : Attrs) (py311 : Bool) (c : Cls) : Event → Bool
  | .call name f => !Direct py311 f && A.ofList c name
  | .fetch name | .test name => A.ofList c name
  | .assign _ | .abstract => true
  | _ => false

end Verif.Ready
