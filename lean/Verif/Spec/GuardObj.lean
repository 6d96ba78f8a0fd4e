import Verif.Spec.ObjList
import Verif.Spec.Guard
import Verif.Model.ObjArrayList

/-!
# Domains of agreement of the object lists with a Python list, and reference accounting

`OAgrees` compares outcomes; `OpOk` are the calls on which ObjectArrayList is claimed to behave like a Python list
without touching freed objects. Everything excluded is a deviation of the code with its own theorem in
`Verif/Props`. `Covered`/`Balanced` relate the counts to the holders.
-/

namespace Verif

/-- The model's outcome is the specified one: same contents, same result; undefined behaviour and a result with an
exception set agree with nothing. -/
def OAgrees : OOut → Spec.ORes → Prop
  | .ok s r, (l, .ok v) => s.vec = l ∧ r = v
  | .exc s e, (l, .error e') => s.vec = l ∧ e = e'
  | _, _ => False

/-- Outcomes of a history agree call by call, and no call is missing. -/
def OAgreesAll : List OOut → List Spec.ORes → Prop
  | [], [] => True
  | o :: os, r :: rs => OAgrees o r ∧ OAgreesAll os rs
  | _, _ => False

/-- No object is counted less often than it is held: `ext o` references held elsewhere, one per element. -/
def Covered (ext : Obj → Nat) (h : Heap) (l : List Obj) : Prop :=
  ∀ o, h.imm o = false → ext o + l.count o ≤ h.rc o

/-- Every mortal object is counted exactly as often as it is held. -/
def Balanced (ext : Obj → Nat) (h : Heap) (l : List Obj) : Prop :=
  ∀ o, h.imm o = false → h.rc o = ext o + l.count o

/-- The caller holds every object it mentions. -/
def Held (ext : Obj → Nat) (h : Heap) (op : OOp) : Prop :=
  ∀ o ∈ Spec.mentioned op, h.imm o = true ∨ 0 < ext o

namespace OObj

/-- No element is equal to `o` without being `o`. -/
def IdEq (H : OHost) (l : List Obj) (o : Obj) : Prop := ∀ x ∈ l, x ≠ o → H.rich .eq x o = .ok false

/-- The second operand of a comparison the library treats as a list. -/
def ordOk (H : OHost) (op : CmpOp) (a b : List Obj) : Prop :=
  match a, b with
  | x :: xs, y :: ys =>
    xs.length = ys.length ∧
    (x ≠ y ∧ H.rich .eq x y = .ok false ∨
      xs = [] ∧ Spec.same H x y = .ok true ∧ H.rich op x y = .ok (decide (op = .le ∨ op = .ge)))
  | _, _ => False

/-- Comparisons on which the answer is Python's. -/
def CmpOk (H : OHost) (op : CmpOp) (l : List Obj) (s : OSrc) : Prop :=
  match Spec.asList l s with
  | some r =>
    match op with
    | .eq => True
    | .ne => ∀ x ∈ l, ∀ y ∈ r, x ≠ y → H.rich .ne x y = (H.rich .eq x y).map (!·)
    | op => ordOk H op l r
  | none => (op = .eq ∨ op = .ne) ∧ match s with | .iter _ _ | .notIterable => True | _ => False

/-- Arguments of `pop` Python and the library read alike. -/
def popOk (l : List Obj) : Option Arg → Prop
  | some (.index _) => False
  | some (.int v) => l ≠ [] ∨ FitsS 64 v
  | some .other => l ≠ []
  | none => True

end OObj

namespace ObjArray

open OObj

/-- A sized sequence that is not the list itself. -/
def sized : OSrc → Option (List Obj)
  | .same v | .list v | .tuple v | .seq v => some v
  | _ => none

/-- A growing slice assignment from another list of the class or a Python list: the inserted objects are not
counted. -/
def growsUncounted (l : List Obj) (s : SliceArg) (src : OSrc) : Prop :=
  match Spec.fields s, src with
  | .ok (i, j, k), .same v | .ok (i, j, k), .list v => (Spec.positions l.length i j k).length < v.length
  | _, _ => False

/-- A call on which the list behaves like a Python list and touches only live objects. -/
def OpOk (H : OHost) (imm : Obj → Bool) (l : List Obj) : OOp → Prop
  | .append _ | .insert _ _ | .mul _ | .rmul _ | .reverse | .clear | .copy | .toList | .len => True
  | .extend s => s ≠ .self
  | .iadd s => s ≠ .self ∧ ∀ v, s ≠ .same v
  | .pop a => popOk l a
  | .remove o | .count o => IdEq H l o
  | .index o i j => IdEq H l o ∧ ArrayList.BoundOk i ∧ ArrayList.BoundOk j
  | .contains o => IdEq H l o ∧ (H.isInt o = true ∨ o ∉ l)
  | .get (.idx a) => a ≠ .other
  | .get (.slice _) => (l.length : Int) ≤ ssizeMax
  | .setItem a _ => a ≠ .other
  | .setSlice s src =>
    (l.length : Int) ≤ ssizeMax ∧
    (src = .notIterable ∨
      ((sized src).isSome = true ∧ (∀ i j k, Spec.fields s = .ok (i, j, k) → k = 1) ∧ ¬ growsUncounted l s src))
  | .del (.idx a) => a ≠ .other
  | .del (.slice s) => ∀ f, Spec.fields s ≠ .ok f
  | .add s => s ≠ .self ∧ ∀ v, s ≠ .same v
  | .imul n => n ≤ 1 ∨ l = []
  | .cmp op s => CmpOk H op l s
  | .resize a =>
    match a with
    | .int v => imm H.none = true ∨ v ≤ l.length ∨ ¬ FitsS 64 v
    | _ => True

/-- The references a call loses: nobody holds them any more, but they stay counted. -/
def leaked (l : List Obj) : OOp → List Obj
  | .setItem a _ =>
    match Spec.word .indexError a with
    | .ok i => ((Spec.position l.length i).bind (l[·]?)).toList
    | .error _ => []
  | .resize (.int v) => if 0 ≤ v ∧ FitsS 64 v then l.drop v.toNat else []
  | .imul n => if n ≤ 0 then l else []
  | _ => []

/-- A history all of whose calls are in the domain, judged on the specified contents. -/
def HistoryOk (H : OHost) (imm : Obj → Bool) : List Obj → List OOp → Prop
  | _, [] => True
  | l, op :: ops => OpOk H imm l op ∧ HistoryOk H imm (Spec.ostep H l op).1 ops

end ObjArray

namespace Spec

/-- References the client holds after giving one up. -/
def release (ext : Obj → Nat) (o : Obj) : Obj → Nat := fun x => if x = o then ext x - 1 else ext x

/-- References the client holds after a call: those in the result are its own. -/
def receive (ext : Obj → Nat) (r : Except Exc OVal) : Obj → Nat := fun x => ext x + (carried r).count x

/-- Contents after a session. -/
def contents (H : OHost) : List Obj → List OEvent → List Obj
  | l, [] => l
  | l, .call op :: es => contents H (ostep H l op).1 es
  | l, .drop _ :: es => contents H l es

/-- References the client holds after a session. -/
def holdings (H : OHost) : (Obj → Nat) → List Obj → List OEvent → Obj → Nat
  | ext, _, [] => ext
  | ext, l, .call op :: es => holdings H (receive ext (ostep H l op).2) (ostep H l op).1 es
  | ext, l, .drop o :: es => holdings H (release ext o) l es

end Spec

namespace ObjArray

/-- A session in the domain: every call is, and the client gives up only mortal objects' references it has. -/
def SessionOk (H : OHost) (imm : Obj → Bool) : (Obj → Nat) → List Obj → List OEvent → Prop
  | _, _, [] => True
  | ext, l, .call op :: es =>
    OpOk H imm l op ∧ (∀ o ∈ Spec.mentioned op, imm o = true ∨ 0 < ext o) ∧
      SessionOk H imm (Spec.receive ext (Spec.ostep H l op).2) (Spec.ostep H l op).1 es
  | ext, l, .drop o :: es => (imm o = true ∨ 0 < ext o) ∧ SessionOk H imm (Spec.release ext o) l es

/-- References lost during a session. -/
def lost (H : OHost) : List Obj → List OEvent → List Obj
  | _, [] => []
  | l, .call op :: es => leaked l op ++ lost H (Spec.ostep H l op).1 es
  | l, .drop _ :: es => lost H l es

end ObjArray
end Verif
