import Verif.Spec.Agree
import Verif.Spec.Aligned

/-!
# Domain of agreement of IntArrayList / BigIntArrayList with a Python list

The calls on which the history theorem (C03) is claimed. Everything excluded here is a deviation of the
code, with its own theorem in `Verif/Props`. Nothing in this file mentions the model's functions.
-/

namespace Verif

/-- Boxing gives the normalised int exactly in these cases. -/
def BoxOk (cfg : Cfg) (K : Kind) (v : Int) : Prop :=
  K = .i64 ∨ cfg.py = .le311 ∨ (0 < v ∧ v < 2 ^ 30)

instance (cfg : Cfg) (K : Kind) (v : Int) : Decidable (BoxOk cfg K v) := by unfold BoxOk; infer_instance

namespace ArrayList

/-- No silent truncation: an integer that fits a machine word fits the element type. -/
def NoTrunc (K : Kind) : Arg → Prop
  | .int v | .index v => FitsS 64 v → FitsS K.bits v
  | .other => True

instance (K : Kind) (a : Arg) : Decidable (NoTrunc K a) := by unfold NoTrunc; split <;> infer_instance

/-- Operands whose items reach the element conversion untruncated. -/
def SrcNoTrunc (K : Kind) : Src → Prop
  | .list xs | .tuple xs | .seq xs | .seqNoLen xs | .iter xs _ => ∀ a ∈ xs, NoTrunc K a
  | .same _ | .self | .notIterable => True

instance (K : Kind) (s : Src) : Decidable (SrcNoTrunc K s) := by unfold SrcNoTrunc; split <;> infer_instance

/-- Sources of a slice assignment that yield good elements independently of the list: another list of the
class whose elements survive boxing, or a list / tuple / sequence of in-range integers. -/
def SrcGood (cfg : Cfg) (K : Kind) : Src → Prop
  | .same v => AllFits K v ∧ (K = .i64 ∨ cfg.py = .le311 ∨ ∀ x ∈ v, 0 ≤ x)
  | .list xs | .tuple xs | .seq xs => ∀ a ∈ xs, Spec.IsElem K.bits a = true
  | _ => False

instance (cfg : Cfg) (K : Kind) (s : Src) : Decidable (SrcGood cfg K s) := by
  unfold SrcGood; split <;> infer_instance

/-- The operand's elements, when they are ints of the element type. -/
def SrcInts (K : Kind) (l : List Int) : Src → Option (List Int)
  | .same v => some v
  | .self => some l
  | .list xs => if ∀ a ∈ xs, (match a with | .int v => decide (FitsS K.bits v) | _ => false) = true
      then some (xs.map Spec.argVal) else none
  | _ => none

/-- An optional bound of `index`: absent, or an integer of the machine word, or not an integer at all. -/
def BoundOk : Option Arg → Prop
  | none | some .other => True
  | some (.int v) | some (.index v) => FitsS 64 v

instance (a : Option Arg) : Decidable (BoundOk a) := by unfold BoundOk; split <;> infer_instance

/-- A call on which the list behaves like a Python list of bounded ints. -/
def OpOk (cfg : Cfg) (K : Kind) (l : List Int) : Op → Prop
  | .append a => NoTrunc K a
  | .extend s => SrcNoTrunc K s ∧ s ≠ .self ∧ (match s with | .same x => AllFits K x | _ => True)
  | .iadd s => SrcNoTrunc K s ∧ s ≠ .self ∧ (match s with | .same _ => False | _ => True)
  | .insert _ _ => True
  | .pop a =>
    (match a with
      | some (.index _) => False
      | some (.int v) => l ≠ [] ∨ FitsS 64 v
      | some .other => l ≠ []
      | none => True) ∧ ∀ v ∈ l, BoxOk cfg K v
  | .remove a | .count a => match a with | .int v => FitsS K.bits v | _ => False
  | .index a i j => (match a with | .int v => FitsS K.bits v | _ => False) ∧ BoundOk i ∧ BoundOk j
  | .contains a => match a with | .int v => FitsS K.bits v | _ => True
  | .get (.idx a) => a ≠ .other ∧ ∀ v ∈ l, BoxOk cfg K v
  | .get (.slice _) => (l.length : Int) ≤ ssizeMax ∧ ∀ v ∈ l, BoxOk cfg K v
  | .set (.idx a) v => a ≠ .other ∧ (match v with | .inl x => NoTrunc K x | .inr _ => True)
  | .set (.slice s) v =>
    (l.length : Int) ≤ ssizeMax ∧
    (match v with
      | .inl _ => True
      | .inr src => src = .notIterable ∨
          (SrcGood cfg K src ∧ match Spec.fields s with | .ok (_, _, k) => k = 1 | .error _ => True))
  | .del (.idx a) => a ≠ .other
  | .del (.slice s) => match Spec.fields s with | .ok _ => False | .error _ => True
  | .add s =>
    match s with
    | .same _ | .self => False
    | .list _ => ∀ v ∈ l, BoxOk cfg K v
    | _ => True
  | .mul n => ∀ t, t < n.toNat → CopyAligned cfg K.size (l.length * t * K.size) l.length
  | .rmul a =>
    match a with
    | .int n | .index n => FitsS 64 n → ∀ t, t < n.toNat → CopyAligned cfg K.size (l.length * t * K.size) l.length
    | .other => True
  | .imul n => n ≤ 1 ∨ l = []
  | .cmp op s =>
    (SrcInts K l s).isSome = true ∨
    (match s with | .iter _ _ | .notIterable => op = .eq ∨ op = .ne | _ => False)
  | .reverse | .resize _ | .clear | .copy | .len | .repr => True
  | .toList => ∀ v ∈ l, BoxOk cfg K v

instance (cfg : Cfg) (K : Kind) (l : List Int) (op : Op) : Decidable (OpOk cfg K l op) := by
  unfold OpOk
  split <;> (try split) <;> (try split) <;> (try split) <;> infer_instance

/-- A history all of whose calls are in the domain, judged on the specified contents. -/
def HistoryOk (cfg : Cfg) (K : Kind) : List Int → List Op → Prop
  | _, [] => True
  | l, op :: ops => OpOk cfg K l op ∧ HistoryOk cfg K (Spec.step K.bits l op).1 ops

instance HistoryOk.dec (cfg : Cfg) (K : Kind) : (l : List Int) → (ops : List Op) → Decidable (HistoryOk cfg K l ops)
  | _, [] => isTrue trivial
  | l, op :: ops =>
    have := HistoryOk.dec cfg K (Spec.step K.bits l op).1 ops
    by unfold HistoryOk; infer_instance

end ArrayList
end Verif
