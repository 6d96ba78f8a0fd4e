import Verif.VocabConstruct
import Verif.Spec.Foreign

/-!
# What a constructor call should do

The parameters are bound as for a Python function `def f(iterable=…, exceptSize=…)`. The elements are those the iterable
yields; for a Python list or a tuple those it has at the call. Each is converted to an int in turn, which may run code; an
exception ends the call.
-/

namespace Verif.Construct

open Foreign

variable {W : Type}

/-- The argument list fits the parameters `names`: not too many positional arguments, every keyword names a parameter that
no positional argument stands for. -/
def Fits (names : List String) (c : Call W) : Prop :=
  c.args.length ≤ names.length ∧ ∀ k ∈ c.kwargs, k.1 ∈ names.drop c.args.length

instance (names : List String) (c : Call W) : Decidable (Fits names c) := by unfold Fits; infer_instance

/-- `t` is the argument for the parameter number `i`, named `name`. -/
def IsArg (c : Call W) (i : Nat) (name : String) (t : Thing W) : Prop :=
  c.args[i]? = some t ∨ (c.args.length ≤ i ∧ (name, t) ∈ c.kwargs)

/-- Keywords of a call have different names (Python sees to it). -/
def Proper (c : Call W) : Prop := (c.kwargs.map Prod.fst).Nodup

/-- The argument `exceptSize`, if there is one, is an int of the machine's word for which there is room; its code leaves
the state `w'`. -/
def Sized (room : Nat → Bool) (c : Call W) (w w' : W) : Prop :=
  ((∀ t, ¬ IsArg c 1 "exceptSize" t) ∧ w' = w) ∨
  ∃ t n, IsArg c 1 "exceptSize" t ∧ t.index.run w = (w', .ok n) ∧ -(2 ^ 63) ≤ n ∧ n < 2 ^ 63 ∧
    (0 < n → room n.toNat = true)

/-- The ints that the objects `xs` stand for, one after the other; every one must be a signed word of `bits` bits. -/
def gather (bits : Nat) (w : W) : List (Live W) → W × Except Exc (List Int)
  | [] => (w, .ok [])
  | x :: xs =>
    match x.run w with
    | (w, .error e) => (w, .error e)
    | (w, .ok v) =>
      match unlessFits bits .overflowError v with
      | some e => (w, .error e)
      | none =>
        match gather bits w xs with
        | (w, .ok vs) => (w, .ok (v :: vs))
        | (w, .error e) => (w, .error e)

/-- The same for what an iterator yields. -/
def drain (bits : Nat) : W → Feed W → W × Except Exc (List Int)
  | w, .done g => (g w, .ok [])
  | w, .fail g e => (g w, .error e)
  | w, .item g x k =>
    match x.run (g w) with
    | (w', .error e) => (w', .error e)
    | (w', .ok v) =>
      match unlessFits bits .overflowError v with
      | some e => (w', .error e)
      | none =>
        match drain bits w' (k w) with
        | (w'', .ok vs) => (w'', .ok (v :: vs))
        | (w'', .error e) => (w'', .error e)

/-- The elements of an argument given as the iterable. -/
def expected (bits : Nat) (code : Nat → Live W) (w : W) : Given W → W × Except Exc (List Int)
  | .int _ => (w, .error .typeError)
  | .same xs => (w, .ok xs)
  | .list p => gather bits w ((p.items w).map code)
  | .sub _ it | .other it =>
    match it w with
    | (w, .error e) => (w, .error e)
    | (w, .ok f) => drain bits w f
  | .tuple xs => gather bits w (xs.map code)

/-- What an iterator of objects yields. -/
def drainObjects : W → Feed W → W × Except Exc (List (Live W))
  | w, .done g => (g w, .ok [])
  | w, .fail g e => (g w, .error e)
  | w, .item g x k =>
    match drainObjects (g w) (k w) with
    | (w', .ok xs) => (w', .ok (x :: xs))
    | (w', .error e) => (w', .error e)

/-- The elements for a list of objects. -/
def expectedObjects (code : Nat → Live W) (w : W) : Given W → W × Except Exc (List (Live W))
  | .int _ => (w, .error .typeError)
  | .same xs => (w, .ok (xs.map fun x => code x.toNat))
  | .list p => (w, .ok ((p.items w).map code))
  | .sub _ it | .other it =>
    match it w with
    | (w, .error e) => (w, .error e)
    | (w, .ok f) => drainObjects w f
  | .tuple xs => (w, .ok (xs.map code))

/-! ## Well-behaved code -/

/-- The code of the objects leaves the list alone. -/
def Apart (code : Nat → Live W) (p : PyList W) : Prop :=
  ∀ x w, p.block ((code x).run w).1 = p.block w ∧ p.items ((code x).run w).1 = p.items w

/-- The code neither moves the list to another block nor shortens it (it may replace elements). -/
def Stays (code : Nat → Live W) (p : PyList W) : Prop :=
  ∀ x w, p.block ((code x).run w).1 = p.block w ∧ (p.items w).length ≤ (p.items ((code x).run w).1).length

/-- The Python list among the arguments, if any. -/
def Given.pyList : Given W → Option (PyList W)
  | .list p => some p
  | .sub p _ => some p
  | _ => none

end Verif.Construct
