import Verif.Vocab

/-!
# Specification: a Python list of bounded integers

What Python's own list does, written independently of the library: positions are sets of indices,
slices are filtered index ranges, searching is `find?` over positions, comparison is lexicographic.
The only addition to Python's list is that every element must lie in the range of a signed `bits`-bit
integer and that storing anything else raises.
-/

namespace Verif.Spec

/-- Results of operations. -/
inductive Val
  | none
  | self                                     -- the list object itself
  | int (v : Int)
  | bool (b : Bool)
  | ints (l : List Int)                      -- a Python list of ints
  | concat (l : List Int) (rest : List Arg)  -- a Python list: ints followed by other objects
  | list (l : List Int)                      -- a new list of the same class
  | str (s : String)
  deriving DecidableEq, Repr

/-- New contents and result or exception. -/
abbrev Res := List Int × Except Exc Val

/-- Range of the element type. -/
def InRange (bits : Nat) (v : Int) : Prop := -(2 ^ (bits - 1)) ≤ v ∧ v < 2 ^ (bits - 1)

instance (b : Nat) (v : Int) : Decidable (InRange b v) := by unfold InRange; infer_instance

/-- The element an object denotes: an in-range integer, else an exception. -/
def elem (bits : Nat) : Arg → Except Exc Int
  | .int v | .index v => if InRange bits v then .ok v else .error .overflowError
  | .other => .error .typeError

/-- An index-like object as an integer of the machine word; `e` is raised outside it. -/
def word (e : Exc) : Arg → Except Exc Int
  | .int v | .index v => if InRange 64 v then .ok v else .error e
  | .other => .error .typeError

/-- The position an index addresses in a list of length `n`. -/
def position (n : Nat) (i : Int) : Option Nat :=
  if 0 ≤ i ∧ i < n then some i.toNat
  else if i < 0 ∧ -(n : Int) ≤ i then some (n - (-i).toNat)
  else none

/-! ## Slices -/

/-- Slice field as an unbounded integer. -/
def field : Option Arg → Except Exc (Option Int)
  | none => .ok none
  | some (.int v) | some (.index v) => .ok (some v)
  | some .other => .error .typeError

/-- The three fields; step defaults to 1 and must not be 0. -/
def fields (s : SliceArg) : Except Exc (Option Int × Option Int × Int) :=
  match field s.step with
  | .error e => .error e
  | .ok k =>
    if k = some 0 then .error .valueError
    else
      match field s.start, field s.stop with
      | .error e, _ => .error e
      | .ok _, .error e => .error e
      | .ok i, .ok j => .ok (i, j, k.getD 1)

/-- A slice bound counted from the front. -/
def fromFront (n : Nat) (i : Int) : Int := if i < 0 then i + n else i

/-- Bound of an ascending slice clamped to 0..n. -/
def clampUp (n : Nat) (i : Int) : Int := max 0 (min n (fromFront n i))

/-- Bound of a descending slice clamped to -1..n-1. -/
def clampDown (n : Nat) (i : Int) : Int := max (-1) (min (n - 1) (fromFront n i))

/-- Positions a slice addresses, in slice order. -/
def positions (n : Nat) (i j : Option Int) (k : Int) : List Nat :=
  if 0 < k then
    let lo := (i.map (clampUp n)).getD 0
    let hi := (j.map (clampUp n)).getD n
    (List.range n).filter fun (p : Nat) => lo ≤ p ∧ (p : Int) < hi ∧ k ∣ p - lo
  else
    let hi := (i.map (clampDown n)).getD (n - 1)
    let lo := (j.map (clampDown n)).getD (-1)
    ((List.range n).filter fun (p : Nat) => lo < p ∧ (p : Int) ≤ hi ∧ k ∣ hi - p).reverse

/-- The elements at the given positions. -/
def pick (l : List α) (ps : List Nat) : List α := ps.filterMap (l[·]?)

/-- Contents after `l[i:j] = xs` (step 1): everything before the slice, the new elements, everything
from the end of the slice on (an empty slice is an insertion point). -/
def spliceAt (l : List α) (i j : Option Int) (xs : List α) : List α :=
  let lo := ((i.map (clampUp l.length)).getD 0).toNat
  let hi := ((j.map (clampUp l.length)).getD l.length).toNat
  l.take lo ++ xs ++ l.drop (max lo hi)

/-- Contents after writing `xs` to the positions `ps`. -/
def overwrite (l : List α) : List Nat → List α → List α
  | p :: ps, x :: xs => overwrite (l.set p x) ps xs
  | _, _ => l

/-- Contents after deleting the positions `ps`. -/
def deleteAll (l : List α) (ps : List Nat) : List α :=
  pick l ((List.range l.length).filter fun p => p ∉ ps)

/-! ## Iterables -/

/-- The objects an operand yields when iterated, and the exception after them. -/
def items (l : List Int) : Src → Except Exc (List Arg × Option Exc)
  | .same v => .ok (v.map .int, none)
  | .self => .ok (l.map .int, none)
  | .list xs | .tuple xs | .seq xs | .seqNoLen xs => .ok (xs, none)
  | .iter xs f => .ok (xs, f)
  | .notIterable => .error .typeError

/-- An object denotes an element. -/
def IsElem (bits : Nat) : Arg → Bool
  | .int v | .index v => decide (InRange bits v)
  | .other => false

/-- The value of an integer-like object. -/
def argVal : Arg → Int
  | .int v | .index v => v
  | .other => 0

/-- The elements before the first object that is none. -/
def prefixElems (bits : Nat) (xs : List Arg) : List Int := (xs.takeWhile (IsElem bits)).map argVal

/-- The exception the first non-element raises. -/
def firstBad (bits : Nat) (xs : List Arg) : Option Exc :=
  match xs.find? (fun a => !IsElem bits a) with
  | none => none
  | some .other => some .typeError
  | some _ => some .overflowError

/-- Appending every object of an iterable until one fails. -/
def absorb (bits : Nat) (l : List Int) (s : Src) (v : Val) : Res :=
  match items l s with
  | .error e => (l, .error e)
  | .ok (xs, f) =>
    match firstBad bits xs, f with
    | some e, _ => (l ++ prefixElems bits xs, .error e)
    | none, some e => (l ++ prefixElems bits xs, .error e)
    | none, none => (l ++ prefixElems bits xs, .ok v)

/-- All objects as elements, or the first exception. -/
def allElems (bits : Nat) (xs : List Arg) : Except Exc (List Int) :=
  match firstBad bits xs with
  | some e => .error e
  | none => .ok (xs.map argVal)

/-! ## Searching -/

/-- First position in `lo ≤ p < hi` holding `v`. -/
def firstAt [DecidableEq α] (l : List α) (lo hi : Int) (v : α) : Option Nat :=
  (List.range l.length).find? fun p => lo ≤ p ∧ (p : Int) < hi ∧ l[p]? = some v

/-- The integer an object is compared as (only ints equal ints here). -/
def asInt? : Arg → Option Int
  | .int v => some v
  | _ => none

/-- Delete the first occurrence. -/
def removeFirst (l : List Int) (v : Int) : Option (List Int) :=
  (firstAt l 0 l.length v).map fun p => l.take p ++ l.drop (p + 1)

/-! ## Comparison -/

/-- Lexicographic strict order. -/
def lexLt : List Int → List Int → Bool
  | [], [] => false
  | [], _ :: _ => true
  | _ :: _, [] => false
  | x :: xs, y :: ys => if x < y then true else if y < x then false else lexLt xs ys

/-- The six comparison operators on lists. -/
def compare (op : CmpOp) (a b : List Int) : Bool :=
  match op with
  | .eq => decide (a = b)
  | .ne => decide (a ≠ b)
  | .lt => lexLt a b
  | .le => lexLt a b || decide (a = b)
  | .gt => lexLt b a
  | .ge => lexLt b a || decide (a = b)

/-- The integers of a list whose objects are all ints. -/
def allInts (xs : List Arg) : Option (List Int) := xs.mapM asInt?

/-- Comparison with an operand: lists of ints lexicographically; anything else is unequal and has no order. -/
def cmp (op : CmpOp) (l : List Int) (s : Src) : Except Exc Val :=
  let other : Option (List Int) := match s with
    | .same v => some v
    | .self => some l
    | .list xs => allInts xs
    | _ => none
  match other, op with
  | some r, op => .ok (.bool (compare op l r))
  | none, .eq => .ok (.bool false)
  | none, .ne => .ok (.bool true)
  | none, _ => .error .typeError

/-! ## repr -/

/-- Python's `repr` of a list of ints. -/
def repr (l : List Int) : String := "[" ++ String.intercalate ", " (l.map toString) ++ "]"

/-! ## The list as a state machine -/

/-- Copies of a list. -/
def copies (l : List Int) (n : Int) : List Int := (List.replicate n.toNat l).flatten

/-- One operation on a Python list of `bits`-bit integers. -/
def step (bits : Nat) (l : List Int) : Op → Res
  | .append a =>
    match elem bits a with
    | .ok v => (l ++ [v], .ok .none)
    | .error e => (l, .error e)
  | .extend s => absorb bits l s .none
  | .iadd s => absorb bits l s .self
  | .insert i a =>
    match word .overflowError i, elem bits a with
    | .error e, _ => (l, .error e)
    | .ok _, .error e => (l, .error e)
    | .ok i, .ok v =>
      let p := (clampUp l.length i).toNat
      (l.take p ++ v :: l.drop p, .ok .none)
  | .pop i =>
    match (match i with | none => Except.ok (-1) | some a => word .overflowError a) with
    | .error e => (l, .error e)
    | .ok i =>
      match position l.length i with
      | none => (l, .error .indexError)
      | some p => (l.take p ++ l.drop (p + 1), .ok (.int (l.getD p 0)))
  | .remove a =>
    match (asInt? a).bind (removeFirst l) with
    | none => (l, .error .valueError)
    | some l' => (l', .ok .none)
  | .index a i j =>
    match field i, field j with
    | .error e, _ => (l, .error e)
    | .ok _, .error e => (l, .error e)
    | .ok i, .ok j =>
      let lo := (i.map (clampUp l.length)).getD 0
      let hi := (j.map (clampUp l.length)).getD l.length
      match (asInt? a).bind (firstAt l lo hi) with
      | none => (l, .error .valueError)
      | some p => (l, .ok (.int p))
  | .count a =>
    (l, .ok (.int (((asInt? a).map fun v => ((l.filter (· = v)).length : Int)).getD 0)))
  | .contains a => (l, .ok (.bool ((asInt? a).any fun v => decide (v ∈ l))))
  | .get k =>
    match k with
    | .idx a =>
      match word .indexError a with
      | .error e => (l, .error e)
      | .ok i =>
        match position l.length i with
        | none => (l, .error .indexError)
        | some p => (l, .ok (.int (l.getD p 0)))
    | .slice s =>
      match fields s with
      | .error e => (l, .error e)
      | .ok (i, j, k) => (l, .ok (.ints (pick l (positions l.length i j k))))
  | .set k v =>
    match k with
    | .idx a =>
      match word .indexError a with
      | .error e => (l, .error e)
      | .ok i =>
        match position l.length i with
        | none => (l, .error .indexError)
        | some p =>
          match elem bits (match v with | .inl a => a | .inr _ => .other) with
          | .error e => (l, .error e)
          | .ok v => (l.take p ++ v :: l.drop (p + 1), .ok .none)
    | .slice s =>
      match fields s with
      | .error e => (l, .error e)
      | .ok (i, j, k) =>
        match v with
        | .inl _ => (l, .error .typeError)
        | .inr src =>
          match items l src with
          | .error e => (l, .error e)
          | .ok (_, some e) => (l, .error e)
          | .ok (xs, none) =>
            match allElems bits xs with
            | .error e => (l, .error e)
            | .ok vs =>
              if k = 1 then (spliceAt l i j vs, .ok .none)
              else if vs.length = (positions l.length i j k).length then
                (overwrite l (positions l.length i j k) vs, .ok .none)
              else (l, .error .valueError)
  | .del k =>
    match k with
    | .idx a =>
      match word .indexError a with
      | .error e => (l, .error e)
      | .ok i =>
        match position l.length i with
        | none => (l, .error .indexError)
        | some p => (l.take p ++ l.drop (p + 1), .ok .none)
    | .slice s =>
      match fields s with
      | .error e => (l, .error e)
      | .ok (i, j, k) => (deleteAll l (positions l.length i j k), .ok .none)
  | .add s =>
    match s with
    | .same v => (l, .ok (.list (l ++ v)))
    | .self => (l, .ok (.list (l ++ l)))
    | .list xs => (l, .ok (.concat l xs))
    | _ => (l, .error .typeError)
  | .mul n => (l, .ok (.list (copies l n)))
  | .rmul a =>
    match a with
    | .int v | .index v => if InRange 64 v then (l, .ok (.list (copies l v))) else (l, .error .overflowError)
    | .other => (l, .error .typeError)
  | .imul n => (copies l n, .ok .self)
  | .cmp op s => (l, cmp op l s)
  | .reverse => (l.reverse, .ok .none)
  | .resize a =>
    match a with
    | .int v =>
      if 0 ≤ v ∧ InRange 64 v then (l.take v.toNat ++ List.replicate (v.toNat - l.length) 0, .ok .none)
      else (l, .error .valueError)
    | _ => (l, .error .typeError)
  | .clear => ([], .ok .none)
  | .copy => (l, .ok (.list l))
  | .toList => (l, .ok (.ints l))
  | .len => (l, .ok (.int l.length))
  | .repr => (l, .ok (.str (repr l)))

/-- Contents and results over a whole history. -/
def run (bits : Nat) : List Int → List Op → List Res
  | _, [] => []
  | l, op :: ops => step bits l op :: run bits (step bits l op).1 ops

end Verif.Spec
