import Verif.VocabForeign
import Verif.Model.Base

/-!
# What a call with Python code inside should do

The code of the arguments runs first, one argument after the other; then the call is carried out on the list as that code
left it. Nothing here mentions how the methods do it.
-/

namespace Verif.Foreign

variable {σ α : Type}

/-- Let the code of `x` run, then go on with the list it left and the int it answered; an exception ends the call. `bad`
tells which answers are refused at once. -/
def after (x : Live σ) (bad : Int → Option Exc) (l : σ) (k : σ → Int → Out σ α) : Out σ α :=
  match x.run l with
  | (l', .error e) => .exc l' e
  | (l', .ok v) =>
    match bad v with
    | some e => .exc l' e
    | none => k l' v

/-- The same for an argument that may be left out. -/
def afterOpt (x : Option (Live σ)) (bad : Int → Option Exc) (l : σ) (k : σ → Option Arg → Out σ α) : Out σ α :=
  match x with
  | none => k l none
  | some x => after x bad l fun l v => k l (some (.index v))

/-- Nothing is refused. -/
def fine (_ : Int) : Option Exc := none

/-- Answers that are not signed words of `bits` bits are refused with `e`. -/
def unlessFits (bits : Nat) (e : Exc) (v : Int) : Option Exc :=
  if -(2 ^ (bits - 1)) ≤ v ∧ v < 2 ^ (bits - 1) then none else some e

/-- A slice step of zero is refused. -/
def zeroStep (v : Int) : Option Exc := if v = 0 then some .valueError else none

/-- Repeated appending: every item goes to the end of the list as it is by then. -/
def pour (app : σ → Int → Out σ α) (r : α) : σ → Feed σ → Out σ α
  | l, .done g => .ok (g l) r
  | l, .fail g e => .exc (g l) e
  | l, .item g x k =>
    after x fine (g l) fun l' v =>
      match app l' v with
      | .ok l'' _ => pour app r l'' (k l)
      | o => o

/-! ## Well-behaved code -/

/-- Code that never leaves the list shorter than it found it. -/
def Grow (g : List Int → List Int) : Prop := ∀ l, l.length ≤ (g l).length

/-- A conversion that never shortens the list. -/
def Live.Grows (x : Live) : Prop := Grow fun l => (x.run l).1

/-- A conversion that leaves the list alone. -/
def Live.Still (x : Live) : Prop := ∀ l, (x.run l).1 = l

/-- Neither fetching nor converting an item ever shortens the list. -/
def Feed.Grows : Feed → Prop
  | .done g => Grow g
  | .fail g _ => Grow g
  | .item g x k => Grow g ∧ x.Grows ∧ ∀ l, (k l).Grows

/-- Converting an item leaves the list alone (fetching it may change it). -/
def Feed.StillItems : Feed → Prop
  | .done _ => True
  | .fail _ _ => True
  | .item _ x k => x.Still ∧ ∀ l, (k l).StillItems

/-- Fetching an item never fails with an exception (the end counts as one for a sequence). -/
def Feed.Endless : Feed σ → Prop
  | .done _ => False
  | .fail _ _ => False
  | .item _ _ k => ∀ l, (k l).Endless

/-- None of the methods of the sequence ever shortens the list. -/
structure Seq.Grows (v : Seq) : Prop where
  len : Grow fun l => (v.len l).1
  items : ∀ l, (v.items l).Grows

/-- An int that answers without touching the list. -/
def Live.of (v : Int) : Live σ := ⟨fun l => (l, .ok v)⟩

/-- The items `vs`, fetched without touching the list, then the end. -/
def Feed.of : List Int → Feed σ
  | [] => .done id
  | v :: vs => .item id (.of v) fun _ => Feed.of vs

/-- A sequence of ints that leaves the list alone. -/
def Seq.of (vs : List Int) : Seq σ := ⟨fun l => (l, .ok vs.length), fun _ => Feed.of vs⟩

/-- A slice whose fields leave the list alone. -/
def LSlice.of (i j k : Option Int) : LSlice σ := ⟨i.map .of, j.map .of, k.map .of⟩

/-! ## Code that empties the list -/

/-- An object whose `__index__` empties the list and answers `v`. -/
def Live.clearing (v : Int) : Live := ⟨fun _ => ([], .ok v)⟩

/-- A sequence of length `n` whose first `__getitem__` empties the list. -/
def Seq.clearing (n : Nat) (v : Int) : Seq :=
  ⟨fun l => (l, .ok n), fun _ => .item (fun _ => []) (.of v) fun _ => .done id⟩

end Verif.Foreign
