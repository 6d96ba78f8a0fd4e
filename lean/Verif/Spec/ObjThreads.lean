import Verif.Model.ObjThreads

/-!
# Specification for C66, ObjectArrayList: calls of several threads, one after the other

Every call acts when it begins. What a call alone does is that of the other properties (`ObjArray.step`), and `reverse` reverses.
-/

namespace Verif.ObjThreads.Spec

/-- One step when every call acts at once. -/
def after1 (cfg : Cfg) (H : OHost) (fuel : Nat) (a : OState) : Act → Except UB OState
  | .call op =>
    match ObjArray.step cfg H fuel a op with
    | .ok a' _ | .exc a' _ | .pending a' _ _ => .ok a'
    | .ub u => .error u
  | .release o =>
    match a.heap.decref o with
    | .error u => .error u
    | .ok h => .ok ⟨a.vec, h⟩
  | .reverse _ => .ok ⟨a.vec.reverse, a.heap⟩
  | .tick _ => .ok a

/-- A whole schedule. -/
def after (cfg : Cfg) (H : OHost) (fuel : Nat) : OState → List Act → Except UB OState
  | a, [] => .ok a
  | a, x :: xs =>
    match after1 cfg H fuel a x with
    | .error u => .error u
    | .ok a => after cfg H fuel a xs

/-- What may be learnt at one step. -/
def Learns (cfg : Cfg) (H : OHost) (fuel : Nat) (a : OState) (x : Obs) : Act → Prop
  | .call op =>
    match ObjArray.step cfg H fuel a op with
    | .ok _ v => x = .ret v
    | .exc _ e => x = .exc e
    | .pending _ v e => x = .pending v e
    | .ub _ => False
  | .release _ => x = .quiet
  | .reverse _ => x = .quiet
  | .tick _ => x = .quiet ∨ x = .ret .none

/-- The same for a schedule. -/
def Learnt (cfg : Cfg) (H : OHost) (fuel : Nat) : OState → List Act → List Obs → Prop
  | _, [], [] => True
  | a, y :: ys, x :: xs => Learns cfg H fuel a x y ∧
    match after1 cfg H fuel a y with
    | .error _ => False
    | .ok a => Learnt cfg H fuel a ys xs
  | _, _, _ => False

/-- No thread uses the list while it is being reversed. -/
def Exclusive1 (s : State) : Act → Prop
  | .call _ | .reverse _ => ∀ t, s.tasks t = none
  | .release _ | .tick _ => True

/-- The same for a whole schedule. -/
def Exclusive (cfg : Cfg) (H : OHost) (fuel : Nat) (s : State) : List Act → Prop
  | [] => True
  | a :: as => Exclusive1 s a ∧
    match ObjThreads.step cfg H fuel s a with
    | .error _ => True
    | .ok (s', _) => Exclusive cfg H fuel s' as

end Verif.ObjThreads.Spec
