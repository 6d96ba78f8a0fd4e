import Verif.Model.Methods
import Verif.Model.ObjArrayList
import Verif.Model.ObjLinkedList

/-!
# Calls by name on object lists

As at the end of `Model/Methods.lean`, for ObjectArrayList (ObjectArrayList.cpp 1139-1206) and ObjectLinkedList
(ObjectLinkedList.cpp 1050-1116).
-/

namespace Verif.Methods

/-- Run a request on an ObjectArrayList; requests that other models treat (sorting C34 and C52, iterators C20 and C21, `repr`
C59) are `none`. -/
def performObj (cfg : Cfg) (H : OHost) (fuel : Nat) (s : OState) (r : Request OSrc) : Option OOut :=
  match r with
  | .mul n => some (match times n with | (_, some e) => .exc s e | (n, none) => ObjArray.step cfg H fuel s (.mul n))
  | .imul n => some (match times n with | (_, some e) => .exc s e | (n, none) => ObjArray.step cfg H fuel s (.imul n))
  | r => r.oop.map (ObjArray.step cfg H fuel s)

/-- A call by name on an ObjectArrayList. (ObjectArrayList.cpp 1139-1206.) -/
def callObj (cfg : Cfg) (H : OHost) (fuel : Nat) (s : OState) (name : Name) (c : Args OSrc) : Option OOut :=
  match request .objArray s.vec.isEmpty name c with
  | none => none
  | some (.error e) => some (.exc s e)
  | some (.ok r) => performObj cfg H fuel s r

/-- The same for ObjectLinkedList. (ObjectLinkedList.cpp 1050-1116.) -/
def performObjLinked (H : OHost) (strict : Bool) (s : OLState) (r : Request OSrc) : Option (Out OLState OVal) :=
  match r with
  | .mul n => some (match times n with | (_, some e) => .exc s e | (n, none) => ObjLinked.step H strict s (.mul n))
  | .imul n => some (match times n with | (_, some e) => .exc s e | (n, none) => ObjLinked.step H strict s (.imul n))
  | r => r.oop.map (ObjLinked.step H strict s)

/-- A call by name on an ObjectLinkedList. (ObjectLinkedList.cpp 1050-1116.) -/
def callObjLinked (H : OHost) (strict : Bool) (s : OLState) (name : Name) (c : Args OSrc) : Option (Out OLState OVal) :=
  match request .objLinked (ObjLinked.vec s).isEmpty name c with
  | none => none
  | some (.error e) => some (.exc s e)
  | some (.ok r) => performObjLinked H strict s r

end Verif.Methods
