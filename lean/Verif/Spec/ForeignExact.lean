import Verif.Spec.Foreign
import Verif.Model.StdList

/-!
# The moments of a call that asks a sequence of a user class for its items

A call that walks over such a sequence fetches an item, converts it, and goes on with the list that this code left. The
relation `Through` says which moments such a walk reaches, the definitions after it what has to happen at a moment for the
walk to go on. Nothing here mentions how the methods do it.
-/

namespace Verif.Foreign

/-- The answer of a conversion as a signed word of `bits` bits; there is none if the code raised or answered more than a
word of 64 bits. -/
def taken (bits : Nat) : Except Exc Int → Option Int
  | .error _ => none
  | .ok v => if -(2 ^ 63) ≤ v ∧ v < 2 ^ 63 then some (v.bmod (2 ^ bits)) else none

/-- `Through go i l f j l' f'`: a walk that has the list `l` and the items `f` ahead when it is about to ask for item `i`
gets as far as asking for item `j`, with the list `l'` and the items `f'` ahead. `go i l1 l2 r l3` says that the walk goes on
with the list `l3` after item `i`, where `l1` is the list after the fetch, and `l2` and `r` are the list and the answer after
the conversion. -/
inductive Through (go : Nat → List Int → List Int → Except Exc Int → List Int → Prop) :
    Nat → List Int → Feed → Nat → List Int → Feed → Prop
  | here {i l f} : Through go i l f i l f
  | next {i l g x k l3 j l' f'} : go i (g l) (x.run (g l)).1 (x.run (g l)).2 l3 → Through go (i + 1) l3 (k l) j l' f' →
      Through go i l (.item g x k) j l' f'

/-- `==` and `!=` go on as long as the items are equal to the elements, which are read between fetch and conversion. -/
def goEqual (bits : Nat) (i : Nat) (l1 l2 : List Int) (r : Except Exc Int) (l3 : List Int) : Prop :=
  l3 = l2 ∧ ∃ a, l1[i]? = some a ∧ taken bits r = some a

/-- The orderings do not notice that a conversion fails: the item counts as -1. -/
def goOrder (bits : Nat) (i : Nat) (l1 l2 : List Int) (r : Except Exc Int) (l3 : List Int) : Prop :=
  l3 = l2 ∧ ∃ a, l1[i]? = some a ∧ (taken bits r).getD (-1) = a

/-- Slice assignment puts the item at its position of the slice that starts at `start`. -/
def goStore (bits start : Nat) (i : Nat) (_ l2 : List Int) (r : Except Exc Int) (l3 : List Int) : Prop :=
  start + i < l2.length ∧ ∃ v, taken bits r = some v ∧ l3 = l2.set (start + i) v

/-- `l2` has a place for an item between the positions `p - 1` and `p`; if the place was looked up before the conversion
(`early`), the conversion must have left the list alone. -/
def Room (early : Bool) (p : Nat) (l1 l2 : List Int) : Prop := p ≤ l2.length ∧ (early = true → l2 = l1)

/-- Slice assignment of more items than the slice has: the others are inserted behind it. -/
def goInsert (early : Bool) (bits start : Nat) (i : Nat) (l1 l2 : List Int) (r : Except Exc Int) (l3 : List Int) : Prop :=
  Room early (start + i) l1 l2 ∧ ∃ v, taken bits r = some v ∧ l3 = l2.take (start + i) ++ v :: l2.drop (start + i)

/-- At some moment before item `n`, the list is too short for the element that is to be compared. -/
def ReadsOutside (go : Nat → List Int → List Int → Except Exc Int → List Int → Prop) (n : Nat) (l : List Int) (f : Feed) :
    Prop :=
  ∃ i l' g x k, i < n ∧ Through go 0 l f i l' (.item g x k) ∧ (g l').length ≤ i

/-- At some moment before item `n`, fetching an item raises. -/
def FetchRaises (go : Nat → List Int → List Int → Except Exc Int → List Int → Prop) (n : Nat) (l : List Int) (f : Feed) :
    Prop :=
  ∃ i l' f', i < n ∧ Through go 0 l f i l' f' ∧ ((∃ g, f' = .done g) ∨ ∃ g e, f' = .fail g e)

/-- At some moment before item `n`, the conversion leaves the list too short for the item to be stored. -/
def StoresOutside (bits start n : Nat) (l : List Int) (f : Feed) : Prop :=
  ∃ i l' g x k, i < n ∧ Through (goStore bits start) 0 l f i l' (.item g x k) ∧ (x.run (g l')).1.length ≤ start + i

/-- Items `n`, …, `m - 1` are to be inserted, and at one of them there is no room. -/
def InsertsOutside (early : Bool) (bits start n m : Nat) (l : List Int) (f : Feed) : Prop :=
  ∃ l' f' i l'' g x k, i < m ∧ Through (goStore bits start) 0 l f n l' f' ∧
    Through (goInsert early bits start) n l' f' i l'' (.item g x k) ∧ ¬ Room early (start + i) (g l'') (x.run (g l'')).1

/-! ## Linked lists: the walk stands at a node -/

/-- The value of the node `id`, and the node after it (`none`: it is the last). -/
def look : List (Nat × Int) → Nat → Option (Int × Option Nat)
  | [], _ => none
  | (i, a) :: rest, id => if i = id then some (a, rest.head?.map Prod.fst) else look rest id

/-- `LThrough same at s f c at' s' f'`: a walk at the node `at` (`none`: behind the last), with the list `s` and the items `f`
ahead, gets as far as the node `at'` with the list `s'` and the items `f'` ahead, after `c` more items. It goes on past an item
if, after the fetch, the node is there and its value and the answer of the conversion are the `same`, and after the conversion
the node is still there. -/
inductive LThrough (same : Int → Except Exc Int → Prop) :
    Option Nat → LState Int → Feed (LState Int) → Nat → Option Nat → LState Int → Feed (LState Int) → Prop
  | here {at_ s f} : LThrough same at_ s f 0 at_ s f
  | next {id s g x k a m b at1 c at' s' f'} : look (g s).nodes id = some (a, m) → same a (x.run (g s)).2 →
      look (x.run (g s)).1.nodes id = some (b, at1) → LThrough same at1 (x.run (g s)).1 (k s) c at' s' f' →
      LThrough same (some id) s (.item g x k) (c + 1) at' s' f'

/-- `==` and `!=` of linked lists: the answer is the value. -/
def sameValue (a : Int) (r : Except Exc Int) : Prop := taken 32 r = some a

/-- The orderings of linked lists: an item that cannot be converted counts as -1. -/
def sameOrder (a : Int) (r : Except Exc Int) : Prop := (taken 32 r).getD (-1) = a

/-- At some moment before item `n`, the walk reads behind the last node (`outOfBounds`), or its node is gone after the fetch or
after the conversion of an item that is the same (`useAfterFree`). -/
def LReadsOutside (same : Int → Except Exc Int → Prop) (n : Nat) (s : LState Int) (f : Feed (LState Int)) (u : UB) : Prop :=
  ∃ c at' s' g x k, c < n ∧ LThrough same (s.nodes.head?.map Prod.fst) s f c at' s' (.item g x k) ∧
    (at' = none ∧ u = .outOfBounds ∨
     (∃ id, at' = some id ∧ u = .useAfterFree ∧ (look (g s').nodes id = none ∨
       ∃ a m, look (g s').nodes id = some (a, m) ∧ same a (x.run (g s')).2 ∧ look (x.run (g s')).1.nodes id = none)))

/-- At some moment before item `n`, fetching an item raises. -/
def LFetchRaises (same : Int → Except Exc Int → Prop) (n : Nat) (s : LState Int) (f : Feed (LState Int)) : Prop :=
  ∃ c at' s' f', c < n ∧ LThrough same (s.nodes.head?.map Prod.fst) s f c at' s' f' ∧
    ((∃ g, f' = .done g) ∨ ∃ g e, f' = .fail g e)

/-- The value of the node `id` is replaced. -/
def put : List (Nat × Int) → Nat → Int → List (Nat × Int)
  | [], _, _ => []
  | (i, a) :: rest, id, v => if i = id then (i, v) :: rest else (i, a) :: put rest id v

/-- A new node before the node `at_` (`none`: behind the last). -/
def putBefore (new : Nat) (v : Int) : List (Nat × Int) → Option Nat → List (Nat × Int)
  | [], _ => [(new, v)]
  | (i, a) :: rest, at_ => if some i = at_ then (new, v) :: (i, a) :: rest else (i, a) :: putBefore new v rest at_

/-- The number of nodes from the node `at_` on; there is none if it is gone. -/
def remaining : List (Nat × Int) → Option Nat → Option Nat
  | _, none => some 0
  | [], some _ => none
  | (i, _) :: rest, some id => if i = id then some (rest.length + 1) else remaining rest (some id)

/-- The walk of a slice assignment over the nodes of the slice: it goes on past an item if it could be converted and the node is
there after that; its value is replaced. -/
inductive LStores : Option Nat → LState Int → Feed (LState Int) → Nat → Option Nat → LState Int → Feed (LState Int) → Prop
  | here {at_ s f} : LStores at_ s f 0 at_ s f
  | next {id s g x k b at1 v c at' s' f'} : look (x.run (g s)).1.nodes id = some (b, at1) →
      taken 32 (x.run (g s)).2 = some v →
      LStores at1 { (x.run (g s)).1 with nodes := put (x.run (g s)).1.nodes id v } (k s) c at' s' f' →
      LStores (some id) s (.item g x k) (c + 1) at' s' f'

/-- The walk that inserts the items that are left before the node behind the slice. -/
inductive LInserts (at_ : Option Nat) : LState Int → Feed (LState Int) → Nat → LState Int → Feed (LState Int) → Prop
  | here {s f} : LInserts at_ s f 0 s f
  | next {s g x k v c s' f'} : (remaining (x.run (g s)).1.nodes at_).isSome → taken 32 (x.run (g s)).2 = some v →
      LInserts at_ ⟨putBefore (x.run (g s)).1.fresh v (x.run (g s)).1.nodes at_, (x.run (g s)).1.fresh + 1,
        (x.run (g s)).1.modCount⟩ (k s) c s' f' →
      LInserts at_ s (.item g x k) (c + 1) s' f'

/-- At some moment before item `n`, the slice has no more nodes (`outOfBounds`), or the node for the item is gone after its
conversion (`useAfterFree`). -/
def LStoresOutside (n : Nat) (at_ : Option Nat) (s : LState Int) (f : Feed (LState Int)) (u : UB) : Prop :=
  ∃ c at' s' g x k, c < n ∧ LStores at_ s f c at' s' (.item g x k) ∧
    (at' = none ∧ u = .outOfBounds ∨ ∃ id, at' = some id ∧ look (x.run (g s')).1.nodes id = none ∧ u = .useAfterFree)

end Verif.Foreign
