import Verif.Spec.GuardObj

/-!
# The calls of an ObjectArrayList after which the counts are right

`ObjArray.Keeps imm l op` says, in terms of the contents and the arguments, when the call `op` on a list with the contents
`l`, every object of which is counted as often as it is held, leaves every object counted as often as it is held; `imm` are
the immortal objects. `Verif/Props/EvenObj.lean` proves that it does so in these cases and in no others. Nothing in this
file mentions the model's functions.
-/

namespace Verif

/-- After the call, which ran into nothing undefined, every mortal object is counted exactly as often as it is held: by the
client, as before, once more for every reference in the result, and once for every position in the list. -/
def Even (ext : Obj → Nat) : OOut → Prop
  | .ok s r => Balanced (Spec.receive ext (.ok r)) s.heap s.vec
  | .exc s e => Balanced (Spec.receive ext (.error e)) s.heap s.vec
  | .pending s _ e => Balanced (Spec.receive ext (.error e)) s.heap s.vec
  | .ub _ => False

namespace ObjArray

/-- Slice assignment with a slice the fields of which are `i`, `j`, `k`. A step other than 1 is refused. A list to a slice it
is longer than: the objects that are too many are immortal. A sequence without length: the element before the slice is
given up as well, so there has to be one, and the slice has to have its ends in order. -/
def SliceKeeps (imm : Obj → Bool) (l : List Obj) (i j : Option Int) (k : Int) : OSrc → Prop
  | .iter _ _ | .notIterable | .tuple _ | .seq _ => True
  | .self => k ≠ 1 ∨ l = []
  | .same v | .list v => k ≠ 1 ∨ ∀ o ∈ v.drop (Spec.positions l.length i j k).length, imm o = true
  | .seqNoLen _ =>
    let lo := (i.map (Spec.clampUp l.length)).getD 0
    let hi := (j.map (Spec.clampUp l.length)).getD l.length
    k ≠ 1 ∨ (1 ≤ lo ∧ lo ≤ hi)

/-- The calls after which the counts are right. -/
def Keeps (H : OHost) (imm : Obj → Bool) (l : List Obj) : OOp → Prop
  | .append _ | .insert _ _ | .pop _ | .remove _ | .index _ _ _ | .count _ | .contains _ | .mul _ | .rmul _ | .add _
  | .reverse | .clear | .copy | .toList | .len | .cmp _ _ | .get (.slice _) => True
  | .extend s | .iadd s => s ≠ .self
  | .get (.idx a) | .del (.idx a) => a ≠ .other
  | .setItem a _ =>
    a ≠ .other ∧ ∀ i p old, Spec.word .indexError a = .ok i → Spec.position l.length i = some p → l[p]? = some old →
      imm old = true
  | .setSlice s src =>
    match Spec.fields s with
    | .error _ => True
    | .ok (i, j, k) => SliceKeeps imm l i j k src
  | .del (.slice s) => ∀ f, Spec.fields s ≠ .ok f
  | .imul n => (n ≤ 0 ∧ ∀ o ∈ l, imm o = true) ∨ n = 1 ∨ l = []
  | .resize (.int v) =>
    0 ≤ v → FitsS 64 v → (∀ o ∈ l.drop v.toNat, imm o = true) ∧ (imm H.none = true ∨ v ≤ l.length)
  | .resize _ => True

end ObjArray
end Verif
