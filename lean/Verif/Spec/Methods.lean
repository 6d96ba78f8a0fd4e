import Verif.VocabMethods
import Verif.Spec.PyList

/-!
# What a call by name should ask for

The signatures of the methods of `list` in Python's documentation, with those of the stubs of the library for the additional
ones: `to_list()`, `resize(size, /)` of the array lists, and `from_range(stop, /)`, `from_range(start, stop, step=1, /)` of the
int lists. `index(value, start=0, stop=…, /)` and `pop(index=-1, /)` have optional arguments; `sort(*, key=None,
reverse=False)` takes its arguments by keyword only; a list has no hash. Everything else is a TypeError.
-/

namespace Verif.Methods

variable {S : Type}

/-- The class has a method of this name. -/
def Has : Cls → Name → Bool
  | .objArray, .fromRange | .objLinked, .fromRange | .intLinked, .resize | .objLinked, .resize => false
  | _, _ => true

/-- Keywords of a call have different names (Python sees to it). -/
def Proper (c : Args S) : Prop := (c.kw.map Prod.fst).Nodup

instance (c : Args S) : Decidable (Proper c) := inferInstanceAs (Decidable (List.Nodup _))

/-- What the call asks for. -/
def documented (name : Name) (c : Args S) : Except Exc (Request S) :=
  match name, c.pos, c.kw with
  | .append, [x], [] => .ok (.append x)
  | .extend, [x], [] => .ok (.extend x)
  | .insert, [i, x], [] => .ok (.insert i x)
  | .pop, [], [] => .ok (.pop none)
  | .pop, [i], [] => .ok (.pop (some i))
  | .remove, [x], [] => .ok (.remove x)
  | .index, [x], [] => .ok (.index x none none)
  | .index, [x, i], [] => .ok (.index x (some i) none)
  | .index, [x, i, j], [] => .ok (.index x (some i) (some j))
  | .count, [x], [] => .ok (.count x)
  | .sort, [], kw =>
    if kw.all (fun k => k.1 = "key" ∨ k.1 = "reverse") then
      .ok (.sort ((kw.lookup "key").filter (!·.isNone)) ((kw.lookup "reverse").elim false Thing.truth))
    else .error .typeError
  | .reverse, [], [] => .ok .reverse
  | .clear, [], [] => .ok .clear
  | .copy, [], [] => .ok .copy
  | .toList, [], [] => .ok .toList
  | .resize, [n], [] => .ok (.resize n)
  | .fromRange, [a], [] => .ok (.range a none none)
  | .fromRange, [a, b], [] => .ok (.range a (some b) none)
  | .fromRange, [a, b, c], [] => .ok (.range a (some b) (some c))
  | .len, [], [] => .ok .len
  | .add, [x], [] => .ok (.add x)
  | .mul, [n], [] => .ok (.mul n)
  | .rmul, [n], [] => .ok (.mul n)
  | .iadd, [x], [] => .ok (.iadd x)
  | .imul, [n], [] => .ok (.imul n)
  | .getitem, [k], [] => .ok (.get k)
  | .setitem, [k, x], [] => .ok (.set k x)
  | .delitem, [k], [] => .ok (.del k)
  | .contains, [x], [] => .ok (.contains x)
  | .iter, [], [] => .ok .iter
  | .reversed, [], [] => .ok .reversed
  | .repr, [], [] => .ok .repr
  | .str, [], [] => .ok .repr
  | .lt, [x], [] => .ok (.cmp .lt x)
  | .le, [x], [] => .ok (.cmp .le x)
  | .eq, [x], [] => .ok (.cmp .eq x)
  | .ne, [x], [] => .ok (.cmp .ne x)
  | .gt, [x], [] => .ok (.cmp .gt x)
  | .ge, [x], [] => .ok (.cmp .ge x)
  | _, _, _ => .error .typeError

/-! ## Where the library asks for something else -/

/-- The arguments are keywords of `list.sort`. -/
def Keywords (c : Args S) : Prop := c.pos = [] ∧ ∀ k ∈ c.kw, k.1 = "key" ∨ k.1 = "reverse"

/-- `t` is given for the parameter `reverse` of `sort`, by position or by keyword. -/
def IsReverse (c : Args S) (t : Thing S) : Prop :=
  c.pos[1]? = some t ∨ (c.pos.length ≤ 1 ∧ ("reverse", t) ∈ c.kw)

/-- The value of an argument that is a number. -/
def Number (t : Thing S) (n : Int) : Prop := t.arg = .int n ∨ t.arg = .index n

/-- `sort` of an int list without a key. -/
def Plain (cls : Cls) (c : Args S) : Prop :=
  cls ≠ .objArray ∧ cls ≠ .objLinked ∧ ∀ k, ("key", k) ∈ c.kw → k.isNone = true

/-- `sort` with the arguments `c`, all of them keywords of `list.sort`, sorts as asked for: the object for `reverse` is a number
of the C type `int` which says the same as its truth value, by being nonzero or, for an int list that is sorted without a key,
by being 1. -/
def Directed (cls : Cls) (c : Args S) : Prop :=
  ∀ t, IsReverse c t → ∃ n, Number t n ∧ Spec.InRange 32 n ∧
    (Plain cls c → (t.truth = true ↔ n = 1)) ∧ (¬ Plain cls c → (t.truth = true ↔ n ≠ 0))

/-- `sort` is called with arguments that `list.sort` refuses and the library does not, or not with a TypeError: up to two,
`reverse` is a number too big for the C type `int`, or every argument finds a place. -/
def Lax (c : Args S) : Prop :=
  c.pos.length + c.kw.length ≤ 2 ∧
  ((∃ t n, IsReverse c t ∧ Number t n ∧ ¬ Spec.InRange 32 n) ∨
   ((∀ t, IsReverse c t → ∃ n, Number t n) ∧ ∀ k ∈ c.kw, k.1 ∈ ["key", "reverse"].drop c.pos.length))

/-- The calls with which the library does not do as documented. -/
def Deviates (cls : Cls) (empty : Bool) (name : Name) (c : Args S) : Prop :=
  match name with
  | .pop => empty = true ∧ c.kw = [] ∧ 2 ≤ c.pos.length
  | .sort => (Keywords c ∧ ¬ Directed cls c) ∨ (¬ Keywords c ∧ Lax c)
  | _ => False

/-- What Python's list does on a request that is a call on ints, `none` for the others. `*` and `*=` take a number of the
machine's word. -/
def pyPerform (bits : Nat) (l : List Int) (r : Request Src) : Option Spec.Res :=
  let counted (t : Thing Src) (f : Int → Op) : Spec.Res :=
    match t.arg with
    | .int n | .index n => if Spec.InRange 64 n then Spec.step bits l (f n) else (l, .error .overflowError)
    | .other => (l, .error .typeError)
  match r with
  | .mul t => some (counted t .mul)
  | .imul t => some (counted t .imul)
  | r => r.op.map (Spec.step bits l)

/-- A call by name on Python's list. -/
def pyCall (bits : Nat) (l : List Int) (name : Name) (c : Args Src) : Option Spec.Res :=
  match documented name c with
  | .error e => some (l, .error e)
  | .ok r => pyPerform bits l r

end Verif.Methods
