import Verif.VocabCompare
import Verif.Spec.GuardCompare

/-!
# The orders Python uses on numbers, strings and tuples of numbers
-/

namespace Verif.Spec.ByKey

open Verif.Key

/-- `k` is an int. -/
def IsInt (k : Obj) : Prop := ∃ i p, k = .int i p ∧ p.Normal

/-- The number an int denotes. -/
def intOf : Obj → Int
  | .int _ p => p.value
  | _ => 0

/-- `k` is a string. -/
def IsStr (k : Obj) : Prop := ∃ i cs, k = .str i cs

/-- The code points of a string. -/
def charsOf : Obj → List Nat
  | .str _ cs => cs
  | _ => []

/-- `k` is a float other than NaN. -/
def IsNumber (k : Obj) : Prop := ∃ i b, k = .float i b ∧ isNaN b = false

/-- The place of a float on the number line. -/
def placeOf : Obj → Int
  | .float _ b => dblKey b
  | _ => 0

/-- `k` is a non-empty tuple of ints. -/
def IsRow (k : Obj) : Prop := ∃ i xs, k = .tuple i xs ∧ xs ≠ [] ∧ ∀ x ∈ xs, IsInt x

/-- The numbers in a tuple of ints. -/
def rowOf : Obj → List Int
  | .tuple _ xs => xs.map intOf
  | _ => []

/-- The items of a tuple. -/
def itemsOf : Obj → List Obj
  | .tuple _ xs => xs
  | _ => []

/-- Objects at the same address are the same object, as far as the items of these tuples go. -/
def OneHeap (l : List Obj) : Prop :=
  ∀ v ∈ l, ∀ w ∈ l, ∀ x ∈ itemsOf v, ∀ y ∈ itemsOf w, x.id = y.id → x = y

/-- Asking the key function for the elements one after the other succeeds and leads from state `s` to `u`. -/
inductive Asked {σ ν : Type} (key : σ → ν → Except Exc Obj × σ) : σ → List ν → σ → Prop
  | nil (s : σ) : Asked key s [] s
  | cons {s t u : σ} {x : ν} {xs : List ν} {k : Obj} (h : key s x = (.ok k, t)) (r : Asked key t xs u) :
      Asked key s (x :: xs) u

/-- State `s'` is reached from `s` by comparisons of elements of `l` that answered and allocations that were granted. -/
inductive Smoothly {σ : Type} (cmp : σ → Obj → Obj → Except Exc Bool × σ) (malloc : σ → Nat → Bool × σ) (l : List Obj) :
    σ → σ → Prop
  | refl (s : σ) : Smoothly cmp malloc l s s
  | less {s t t' : σ} {x y : Obj} {b : Bool} (r : Smoothly cmp malloc l s t) (hx : x ∈ l) (hy : y ∈ l)
      (h : cmp t x y = (.ok b, t')) : Smoothly cmp malloc l s t'
  | room {s t t' : σ} {n : Nat} (r : Smoothly cmp malloc l s t) (h : malloc t n = (true, t')) :
      Smoothly cmp malloc l s t'

end Verif.Spec.ByKey
