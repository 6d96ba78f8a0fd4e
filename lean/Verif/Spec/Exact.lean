import Verif.Spec.Guard

/-!
# The exact domain of agreement of IntArrayList / BigIntArrayList with a Python list

`Exact cfg K l op` says, in terms of the contents, the arguments and Python's own list only, when the call `op` on a list with
the contents `l` does what a Python list of bounded ints does. `Verif/Props/Exact.lean` proves that it does so in these cases
and in no others. Nothing in this file mentions the model's functions.
-/

namespace Verif.ArrayList

/-- The operand can exist: the elements of another list of the class are in range. -/
def Src.Possible (K : Kind) : Src → Prop
  | .same v => AllFits K v
  | _ => True

/-- The arguments of the call can exist. -/
def Possible (K : Kind) : Op → Prop
  | .extend s | .iadd s | .add s | .cmp _ s | .set _ (.inr s) => Src.Possible K s
  | _ => True

instance (K : Kind) (s : Src) : Decidable (Src.Possible K s) := by unfold Src.Possible; split <;> infer_instance
instance (K : Kind) (op : Op) : Decidable (Possible K op) := by unfold Possible; split <;> infer_instance

/-- The low bits of `v` are those of `x`. -/
def SameLow (K : Kind) (v x : Int) : Prop := (2 ^ K.bits : Int) ∣ v - x

instance (K : Kind) (v x : Int) : Decidable (SameLow K v x) := by unfold SameLow; infer_instance

/-- Searching for `v`, which is not an element, among `l` is harmless: it fits a machine word and no element has its low
bits. -/
def Harmless (K : Kind) (l : List Int) (v : Int) : Prop := FitsS 64 v ∧ ∀ x ∈ l, ¬ SameLow K v x

instance (K : Kind) (l : List Int) (v : Int) : Decidable (Harmless K l v) := by unfold Harmless; infer_instance

/-- Items to be stored one after the other: none of those before the first that does not fit a machine word is too wide. -/
def NarrowPrefix (K : Kind) (xs : List Arg) : Prop := ∀ a ∈ xs.takeWhile (Spec.IsElem 64), Spec.IsElem K.bits a = true

instance (K : Kind) (xs : List Arg) : Decidable (NarrowPrefix K xs) := by unfold NarrowPrefix; infer_instance

/-- An element survives being read by another list: as an int object whose value is wrong for negative numbers from 3.12 on,
except for the least one. -/
def ReadBack (cfg : Cfg) (K : Kind) (v : Int) : Prop := K = .i64 ∨ cfg.py = .le311 ∨ 0 ≤ v ∨ v = -2 ^ 31

instance (cfg : Cfg) (K : Kind) (v : Int) : Decidable (ReadBack cfg K v) := by unfold ReadBack; infer_instance

/-- Index-like arguments that are addressed by the position `p` are read as a normal int object. -/
def BoxAt (cfg : Cfg) (K : Kind) (l : List Int) (i : Int) : Prop :=
  match Spec.position l.length i with
  | none => True
  | some p => BoxOk cfg K (l.getD p 0)

instance (cfg : Cfg) (K : Kind) (l : List Int) (i : Int) : Decidable (BoxAt cfg K l i) := by
  unfold BoxAt; split <;> infer_instance

/-- Comparison for equality with `xs`, of the same length: the items are what the elements are, or one whose low bits differ
comes before any that does not fit a machine word. -/
def EqDecided (K : Kind) (l : List Int) (xs : List Arg) : Prop :=
  ∃ i, i < l.length ∧ (∀ a ∈ xs.take (i + 1), Spec.IsElem 64 a = true) ∧
    ¬ SameLow K (Spec.argVal (xs.getD i .other)) (l.getD i 0)

instance (K : Kind) (l : List Int) (xs : List Arg) : Decidable (EqDecided K l xs) := by
  unfold EqDecided; infer_instance

/-- The element type's value with the low bits of `v`. -/
def lowBits (K : Kind) (v : Int) : Int := Int.bmod v (2 ^ K.bits)

/-- Comparison for order with the ints `r`: those that are looked at fit a machine word, and with their low bits only the
answer is the same. -/
def OrdDecided (K : Kind) (op : CmpOp) (l r : List Int) : Prop :=
  (∀ i, i < l.length → i < r.length → (∀ j, j < i → l.getD j 0 = lowBits K (r.getD j 0)) → FitsS 64 (r.getD i 0)) ∧
  Spec.compare op l (r.map (lowBits K)) = Spec.compare op l r

instance (K : Kind) (op : CmpOp) (l r : List Int) : Decidable (OrdDecided K op l r) := by
  unfold OrdDecided; infer_instance

/-- Assignment of `xs` to the `n` elements from `lo` on: every item is an element, or the first item that does not fit a
machine word is one for an existing position that holds -1, the exception is that of a Python list, and the items before
it have the low bits of what is there already. -/
def AssignOk (K : Kind) (l : List Int) (lo n : Nat) (xs : List Arg) : Prop :=
  (∀ a ∈ xs, Spec.IsElem K.bits a = true) ∨
  (let r := (xs.takeWhile (Spec.IsElem 64)).length
   r < xs.length ∧ r < n ∧ l.getD (lo + r) 0 = -1 ∧ Spec.firstBad K.bits xs = Spec.firstBad 64 xs ∧
    ∀ i, i < r → SameLow K (Spec.argVal (xs.getD i .other)) (l.getD (lo + i) 0))

instance (K : Kind) (l : List Int) (lo n : Nat) (xs : List Arg) : Decidable (AssignOk K l lo n xs) := by
  unfold AssignOk; infer_instance

/-- Assignment of the list to its own `n` elements from `lo` on: they are all of its elements, or, from the front, those after
them are all equal, or the list repeats itself every `lo` elements. -/
def SelfOk (l : List Int) (lo n : Nat) : Prop :=
  if lo = 0 then ∀ i, i < l.length → n < i → l.getD i 0 = l.getD n 0
  else ∀ i, i < l.length - lo → l.getD (i + lo) 0 = l.getD i 0

instance (l : List Int) (lo n : Nat) : Decidable (SelfOk l lo n) := by unfold SelfOk; infer_instance

/-- The element `v` is at none of the positions from `i` to `j`; or one of these is no integer. -/
def Absent (l : List Int) (i j : Option Arg) (v : Int) : Prop :=
  match Spec.field i, Spec.field j with
  | .ok i, .ok j => Spec.firstAt l ((i.map (Spec.clampUp l.length)).getD 0)
      ((j.map (Spec.clampUp l.length)).getD l.length) v = none
  | _, _ => True

instance (l : List Int) (i j : Option Arg) (v : Int) : Decidable (Absent l i j v) := by
  unfold Absent; split <;> infer_instance

/-- The calls that do what a Python list does. -/
def Exact (cfg : Cfg) (K : Kind) (l : List Int) : Op → Prop
  | .append a => NoTrunc K a
  | .extend s =>
    match s with
    | .self => False
    | .list xs | .tuple xs | .seq xs | .seqNoLen xs | .iter xs _ => NarrowPrefix K xs
    | .same _ | .notIterable => True
  | .iadd s =>
    match s with
    | .self | .same _ => False
    | .list xs | .tuple xs | .seq xs | .seqNoLen xs | .iter xs _ => NarrowPrefix K xs
    | .notIterable => True
  | .insert _ _ => True
  | .pop a =>
    match a with
    | none => BoxAt cfg K l (-1)
    | some .other => l ≠ []
    | some (.index v) => l = [] ∧ FitsS 64 v
    | some (.int v) => if FitsS 64 v then BoxAt cfg K l v else l ≠ []
  | .remove a | .count a =>
    match a with
    | .int v => FitsS K.bits v ∨ Harmless K l v
    | .index v => Harmless K l v
    | .other => False
  | .contains a =>
    match a with
    | .int v => FitsS K.bits v ∨ Harmless K l v
    | _ => True
  | .index a i j =>
    match a with
    | .other => i = some .other ∨ j = some .other
    | .int v => FitsS K.bits v ∧ (i = some .other ∨ (BoundOk i ∧ BoundOk j))
    | .index v => FitsS K.bits v ∧ (i = some .other ∨ (BoundOk i ∧ BoundOk j ∧
        Absent l i j v))
  | .get (.idx a) =>
    match a with
    | .other => False
    | .int v | .index v => FitsS 64 v → BoxAt cfg K l v
  | .get (.slice s) =>
    match Spec.fields s with
    | .error _ => True
    | .ok (i, j, k) => ∀ v ∈ Spec.pick l (Spec.positions l.length i j k), BoxOk cfg K v
  | .set (.idx a) v =>
    match a with
    | .other => False
    | .int i | .index i => FitsS 64 i → Spec.position l.length i ≠ none →
        match v with | .inl x => NoTrunc K x | .inr _ => True
  | .set (.slice s) v =>
    match Spec.fields s with
    | .error _ => True
    | .ok (i, j, k) =>
      let lo := ((i.map (Spec.clampUp l.length)).getD 0).toNat
      let hi := ((j.map (Spec.clampUp l.length)).getD l.length).toNat
      match v with
      | .inl _ | .inr .notIterable => True
      | .inr (.iter _ (some e)) => e = .typeError
      | .inr (.iter xs none) => Spec.firstBad K.bits xs = some .typeError
      | .inr (.seqNoLen _) => False
      | .inr (.same v) => k = 1 ∧ ∀ x ∈ v, ReadBack cfg K x
      | .inr .self => k = 1 ∧ (∀ x ∈ l, ReadBack cfg K x) ∧ SelfOk l lo (hi - lo)
      | .inr (.list xs) | .inr (.tuple xs) | .inr (.seq xs) => k = 1 ∧ AssignOk K l lo (hi - lo) xs
  | .del (.idx a) => a ≠ .other
  | .del (.slice s) => match Spec.fields s with | .ok _ => False | .error _ => True
  | .add s =>
    match s with
    | .same _ | .self => False
    | .list _ => ∀ v ∈ l, BoxOk cfg K v
    | _ => True
  | .mul n => ∀ t, t < n.toNat → CopyAligned cfg K.size (l.length * t * K.size) l.length
  | .rmul a =>
    match a with
    | .int n | .index n => FitsS 64 n → ∀ t, t < n.toNat → CopyAligned cfg K.size (l.length * t * K.size) l.length
    | .other => True
  | .imul n => n ≤ 1 ∨ l = []
  | .cmp op s =>
    match s, op with
    | .same _, _ | .self, _ => True
    | .list xs, .eq | .list xs, .ne =>
      xs.length ≠ l.length ∨ xs = l.map .int ∨ EqDecided K l xs
    | .tuple xs, .eq | .tuple xs, .ne | .seq xs, .eq | .seq xs, .ne => xs.length ≠ l.length ∨ EqDecided K l xs
    | .list xs, op => match Spec.allInts xs with | none => False | some r => OrdDecided K op l r
    | .iter _ _, .eq | .iter _ _, .ne | .notIterable, .eq | .notIterable, .ne => True
    | _, _ => False
  | .reverse | .resize _ | .clear | .copy | .len | .repr => True
  | .toList => ∀ v ∈ l, BoxOk cfg K v

instance (cfg : Cfg) (K : Kind) (l : List Int) (op : Op) : Decidable (Exact cfg K l op) := by
  unfold Exact
  split <;> (try split) <;> (try split) <;> (try split) <;> infer_instance

/-- A history all of whose calls do what a Python list does, judged on the specified contents. -/
def HistoryExact (cfg : Cfg) (K : Kind) : List Int → List Op → Prop
  | _, [] => True
  | l, op :: ops => Exact cfg K l op ∧ HistoryExact cfg K (Spec.step K.bits l op).1 ops

/-- The specified contents stay below the greatest length there is. -/
def Short (bits : Nat) : List Int → List Op → Prop
  | l, [] => (l.length : Int) ≤ ssizeMax
  | l, op :: ops => (l.length : Int) ≤ ssizeMax ∧ Short bits (Spec.step bits l op).1 ops

/-- The arguments of all calls can exist. -/
def AllPossible (K : Kind) (ops : List Op) : Prop := ∀ op ∈ ops, Possible K op

instance HistoryExact.dec (cfg : Cfg) (K : Kind) : (l : List Int) → (ops : List Op) → Decidable (HistoryExact cfg K l ops)
  | _, [] => isTrue trivial
  | l, op :: ops =>
    have := HistoryExact.dec cfg K (Spec.step K.bits l op).1 ops
    by unfold HistoryExact; infer_instance

instance (K : Kind) (ops : List Op) : Decidable (AllPossible K ops) := by unfold AllPossible; infer_instance

instance Short.dec (bits : Nat) : (l : List Int) → (ops : List Op) → Decidable (Short bits l ops)
  | l, [] => by unfold Short; infer_instance
  | l, op :: ops =>
    have := Short.dec bits (Spec.step bits l op).1 ops
    by unfold Short; infer_instance

end Verif.ArrayList
