import Verif.Props.Exact
import Verif.Props.ExactLinked
import Verif.Props.ExactObj
import Verif.Props.ExactObjLinked

/-!
# The exact theorems, property by property

What C03, C24 and C33 say of single methods, with the conditions written out.
-/

namespace Verif.Props

open Verif

/-! ## Int array lists -/

section ints

variable (cfg : Cfg) (K : Kind) (l : List Int) (hf : AllFits K l) (hn : (l.length : Int) ≤ ssizeMax)
include hf hn

/-- C05, exactly, array lists: `remove` and `count` are right for a value of the element type, and for others if they fit a
machine word and no element has their low bits; `in` for the same ints and for all that are no ints; `index` for values of the
element type. -/
theorem C05_exact (v : Int) :
    (Agrees (ArrayList.step cfg K l (.remove (.int v))) (Spec.step K.bits l (.remove (.int v))) ↔
      FitsS K.bits v ∨ (FitsS 64 v ∧ ∀ x ∈ l, ¬ (2 ^ K.bits : Int) ∣ v - x)) ∧
    (Agrees (ArrayList.step cfg K l (.count (.int v))) (Spec.step K.bits l (.count (.int v))) ↔
      FitsS K.bits v ∨ (FitsS 64 v ∧ ∀ x ∈ l, ¬ (2 ^ K.bits : Int) ∣ v - x)) ∧
    (Agrees (ArrayList.step cfg K l (.contains (.int v))) (Spec.step K.bits l (.contains (.int v))) ↔
      FitsS K.bits v ∨ (FitsS 64 v ∧ ∀ x ∈ l, ¬ (2 ^ K.bits : Int) ∣ v - x)) ∧
    (Agrees (ArrayList.step cfg K l (.index (.int v) none none)) (Spec.step K.bits l (.index (.int v) none none)) ↔
      FitsS K.bits v) := by
  refine ⟨C03_exact cfg K l (.remove (.int v)) hf hn trivial, C03_exact cfg K l (.count (.int v)) hf hn trivial, C03_exact cfg K l (.contains (.int v)) hf hn trivial,
    (C03_exact cfg K l (.index (.int v) none none) hf hn trivial).trans ?_⟩
  simp [ArrayList.Exact, ArrayList.BoundOk]

/-- C10, exactly, array lists: `l + other` is right with a Python list if the elements are read back right, never with a list of
the class, and always (a TypeError) with anything else. -/
theorem C10_exact (s : Src) (hp : ArrayList.Src.Possible K s) :
    Agrees (ArrayList.step cfg K l (.add s)) (Spec.step K.bits l (.add s)) ↔
      (∀ v, s ≠ .same v) ∧ s ≠ .self ∧ ∀ xs, s = .list xs → ∀ v ∈ l, BoxOk cfg K v := by
  refine (C03_exact cfg K l (.add s) hf hn hp).trans ?_
  cases s <;> simp [ArrayList.Exact]

/-- C12, exactly, array lists: `l *= n` is right for `n ≤ 1` and for the empty list only. -/
theorem C12_exact (n : Int) :
    Agrees (ArrayList.step cfg K l (.imul n)) (Spec.step K.bits l (.imul n)) ↔ n ≤ 1 ∨ l = [] :=
  C03_exact cfg K l (.imul n) hf hn trivial

/-- C13, exactly, array lists: `l += other` is right unless `other` is a list of the class, or an item too wide for the element
type comes before the first that fits no machine word. -/
theorem C13_exact (s : Src) (hp : ArrayList.Src.Possible K s) :
    Agrees (ArrayList.step cfg K l (.iadd s)) (Spec.step K.bits l (.iadd s)) ↔
      (∀ v, s ≠ .same v) ∧ s ≠ .self ∧
      ∀ xs, s = .list xs ∨ s = .tuple xs ∨ s = .seq xs ∨ s = .seqNoLen xs ∨ (∃ e, s = .iter xs e) →
        ∀ a ∈ xs.takeWhile (Spec.IsElem 64), Spec.IsElem K.bits a = true := by
  refine (C03_exact cfg K l (.iadd s) hf hn hp).trans ?_
  cases s <;> simp [ArrayList.Exact, ArrayList.NarrowPrefix]

/-- C07, exactly, array lists: assigning a Python list or tuple `xs` to `l[i:j]` (step 1) is right if every item is an element;
otherwise the call must fail, as Python's does, at the first item that fits no machine word, at a position that holds -1, the
items before it being there already. -/
theorem C07_exact (s : SliceArg) (i j : Option Int) (hs : Spec.fields s = .ok (i, j, 1)) (xs : List Arg) :
    (Agrees (ArrayList.step cfg K l (.set (.slice s) (.inr (.list xs))))
      (Spec.step K.bits l (.set (.slice s) (.inr (.list xs)))) ↔
      ArrayList.AssignOk K l ((i.map (Spec.clampUp l.length)).getD 0).toNat
        (((j.map (Spec.clampUp l.length)).getD l.length).toNat - ((i.map (Spec.clampUp l.length)).getD 0).toNat) xs) ∧
    (Agrees (ArrayList.step cfg K l (.set (.slice s) (.inr (.tuple xs))))
      (Spec.step K.bits l (.set (.slice s) (.inr (.tuple xs)))) ↔
      ArrayList.AssignOk K l ((i.map (Spec.clampUp l.length)).getD 0).toNat
        (((j.map (Spec.clampUp l.length)).getD l.length).toNat - ((i.map (Spec.clampUp l.length)).getD 0).toNat) xs) := by
  constructor
  · refine (C03_exact cfg K l (.set (.slice s) (.inr (.list xs))) hf hn trivial).trans ?_
    simp [ArrayList.Exact, hs]
  · refine (C03_exact cfg K l (.set (.slice s) (.inr (.tuple xs))) hf hn trivial).trans ?_
    simp [ArrayList.Exact, hs]

/-- C07, exactly: `del l[i:j:k]` is never right, and neither is an assignment with a step other than 1 from a list or tuple. -/
theorem C07_never (s : SliceArg) (i j : Option Int) (k : Int) (hs : Spec.fields s = .ok (i, j, k)) (xs : List Arg) :
    ¬ Agrees (ArrayList.step cfg K l (.del (.slice s))) (Spec.step K.bits l (.del (.slice s))) ∧
    (k ≠ 1 → ¬ Agrees (ArrayList.step cfg K l (.set (.slice s) (.inr (.list xs))))
      (Spec.step K.bits l (.set (.slice s) (.inr (.list xs))))) := by
  constructor
  · rw [C03_exact cfg K l (.del (.slice s)) hf hn trivial]
    simp [ArrayList.Exact, hs]
  · intro hk
    rw [C03_exact cfg K l (.set (.slice s) (.inr (.list xs))) hf hn trivial]
    simp [ArrayList.Exact, hs, hk]

/-- C01, exactly: `l[i]` of an existing position is right if and only if the element is one that the interpreter's object for
it represents (`BoxOk`: from 3.12 on a positive number for the 32-bit lists). -/
theorem C01_exact (i : Int) (hi : FitsS 64 i) (p : Nat) (hp : Spec.position l.length i = some p) :
    Agrees (ArrayList.step cfg K l (.get (.idx (.int i)))) (Spec.step K.bits l (.get (.idx (.int i)))) ↔
      BoxOk cfg K (l.getD p 0) := by
  refine (C03_exact cfg K l (.get (.idx (.int i))) hf hn trivial).trans ?_
  simp [ArrayList.Exact, ArrayList.BoxAt, hp, hi]

end ints

/-! ## IntLinkedList -/

section linked

variable (cfg : Cfg) (strict : Bool) (s : LState Int) (hf : AllFits .i32 s.vals) (hn : (s.vals.length : Int) ≤ ssizeMax)
include hf hn

/-- C15, exactly: order of two IntLinkedLists. Lists of different lengths are taken to be in the order of the lengths; lists
that look equal in no order; others are compared by what this list sees of the other's elements, which is wrong for negative
ones from 3.12 on. -/
theorem C15_exact (op : CmpOp) (v : List Int) (hv : AllFits .i32 v) (h1 : op ≠ .eq) (h2 : op ≠ .ne) :
    Agrees (LinkedList.view (LinkedList.step cfg strict s (.cmp op (.same v)))) (Spec.step 32 s.vals (.cmp op (.same v))) ↔
      if s.vals.length ≠ v.length then Spec.compare op s.vals v = decide (s.vals.length < v.length)
      else if s.vals = v.map (LinkedList.seen cfg) then Spec.compare op s.vals v = false
      else Spec.compare op s.vals (v.map (LinkedList.seen cfg)) = Spec.compare op s.vals v := by
  refine (C24_exact cfg strict s (.cmp op (.same v)) hf hn hv).trans ?_
  cases op <;> first | exact Iff.rfl | exact absurd rfl h1 | exact absurd rfl h2

/-- C15, exactly: equality of two IntLinkedLists. -/
theorem C15_eq_exact (v : List Int) (hv : AllFits .i32 v) :
    Agrees (LinkedList.view (LinkedList.step cfg strict s (.cmp .eq (.same v)))) (Spec.step 32 s.vals (.cmp .eq (.same v))) ↔
      (s.vals = v.map (LinkedList.seen cfg) ↔ s.vals = v) :=
  C24_exact cfg strict s (.cmp .eq (.same v)) hf hn hv

/-- C25, exactly: `pop(i)` of an IntLinkedList is right only if there is no element `i` (and so an exception). -/
theorem C25_exact (i : Int) (hi : FitsS 64 i) :
    Agrees (LinkedList.view (LinkedList.step cfg strict s (.pop (some (.int i))))) (Spec.step 32 s.vals (.pop (some (.int i)))) ↔
      Spec.position s.vals.length i = none := by
  refine (C24_exact cfg strict s (.pop (some (.int i))) hf hn trivial).trans ?_
  simp [LinkedList.Exact, hi]

/-- C05, exactly, for IntLinkedList. -/
theorem C05_linked_exact (v : Int) :
    (Agrees (LinkedList.view (LinkedList.step cfg strict s (.remove (.int v)))) (Spec.step 32 s.vals (.remove (.int v))) ↔
      FitsS 32 v ∨ (FitsS 64 v ∧ ∀ x ∈ s.vals, ¬ (2 ^ 32 : Int) ∣ v - x)) ∧
    (Agrees (LinkedList.view (LinkedList.step cfg strict s (.count (.int v)))) (Spec.step 32 s.vals (.count (.int v))) ↔
      FitsS 32 v ∨ (FitsS 64 v ∧ ∀ x ∈ s.vals, ¬ (2 ^ 32 : Int) ∣ v - x)) ∧
    (Agrees (LinkedList.view (LinkedList.step cfg strict s (.contains (.int v)))) (Spec.step 32 s.vals (.contains (.int v))) ↔
      FitsS 32 v ∨ (FitsS 64 v ∧ ∀ x ∈ s.vals, ¬ (2 ^ 32 : Int) ∣ v - x)) :=
  ⟨C24_exact cfg strict s (.remove (.int v)) hf hn trivial, C24_exact cfg strict s (.count (.int v)) hf hn trivial, C24_exact cfg strict s (.contains (.int v)) hf hn trivial⟩

end linked

/-! ## Object lists -/

section objects

variable (H : OHost) (ext : Obj → Nat)

/-- C30, exactly, ObjectArrayList: `remove(o)` is right if Python's search by equality ends where a search by identity does;
`count` if `o` equals as many elements as it is; `in` if the answer is that for an int which is itself an element. -/
theorem C30_exact (cfg : Cfg) (fuel : Nat) (hf : 0 < fuel) (s : OState) (o : Obj) (hc : Covered ext s.heap s.vec)
    (hn : (s.vec.length : Int) ≤ ssizeMax) (ho : s.heap.imm o = true ∨ 0 < ext o) :
    (OAgrees (ObjArray.step cfg H fuel s (.remove o)) (Spec.ostep H s.vec (.remove o)) ↔
      Spec.search H o s.vec = .ok (s.vec.findIdx? (· == o)) ∨ (o ∉ s.vec ∧ Spec.search H o s.vec = .error .valueError)) ∧
    (OAgrees (ObjArray.step cfg H fuel s (.count o)) (Spec.ostep H s.vec (.count o)) ↔
      Spec.occurrences H o s.vec = .ok (s.vec.count o)) ∧
    (OAgrees (ObjArray.step cfg H fuel s (.contains o)) (Spec.ostep H s.vec (.contains o)) ↔
      (Spec.search H o s.vec).map Option.isSome = .ok (H.isInt o && decide (o ∈ s.vec))) :=
  ⟨C33_ObjectArrayList_exact cfg H fuel hf ext s _ hc hn (by intro x hx; cases List.mem_singleton.1 hx; exact ho),
   C33_ObjectArrayList_exact cfg H fuel hf ext s _ hc hn (by intro x hx; cases List.mem_singleton.1 hx; exact ho),
   C33_ObjectArrayList_exact cfg H fuel hf ext s _ hc hn (by intro x hx; cases List.mem_singleton.1 hx; exact ho)⟩

/-- C30, exactly, ObjectLinkedList. -/
theorem C30_linked_exact (strict : Bool) (s : OLState) (o : Obj) (hc : Covered ext s.heap (ObjLinked.vec s))
    (hn : ((ObjLinked.vec s).length : Int) ≤ ssizeMax) (ho : s.heap.imm o = true ∨ 0 < ext o) :
    (OAgrees (ObjLinked.view (ObjLinked.step H strict s (.remove o))) (Spec.ostep H (ObjLinked.vec s) (.remove o)) ↔
      Spec.search H o (ObjLinked.vec s) = .ok ((ObjLinked.vec s).findIdx? (· == o)) ∨
        (o ∉ ObjLinked.vec s ∧ Spec.search H o (ObjLinked.vec s) = .error .valueError)) ∧
    (OAgrees (ObjLinked.view (ObjLinked.step H strict s (.count o))) (Spec.ostep H (ObjLinked.vec s) (.count o)) ↔
      Spec.occurrences H o (ObjLinked.vec s) = .ok ((ObjLinked.vec s).count o)) ∧
    (OAgrees (ObjLinked.view (ObjLinked.step H strict s (.contains o))) (Spec.ostep H (ObjLinked.vec s) (.contains o)) ↔
      (Spec.search H o (ObjLinked.vec s)).map Option.isSome = .ok (H.isInt o && decide (o ∈ ObjLinked.vec s))) :=
  ⟨C33_ObjectLinkedList_exact H strict ext s _ hc hn trivial (by intro x hx; cases List.mem_singleton.1 hx; exact ho),
   C33_ObjectLinkedList_exact H strict ext s _ hc hn trivial (by intro x hx; cases List.mem_singleton.1 hx; exact ho),
   C33_ObjectLinkedList_exact H strict ext s _ hc hn trivial (by intro x hx; cases List.mem_singleton.1 hx; exact ho)⟩

/-- C31, exactly, ObjectArrayList: order against another list is right if it is that of the lengths, or, for equal lengths,
that of the first elements (false for empty lists); `!=` if the elements' `!=` gives the answer; `==` always (`CmpList`). -/
theorem C31_exact (cfg : Cfg) (fuel : Nat) (hf : 0 < fuel) (s : OState) (op : CmpOp) (r : List Obj)
    (hc : Covered ext s.heap s.vec) (hn : (s.vec.length : Int) ≤ ssizeMax) (hh : Held ext s.heap (.cmp op (.list r))) :
    OAgrees (ObjArray.step cfg H fuel s (.cmp op (.list r))) (Spec.ostep H s.vec (.cmp op (.list r))) ↔
      OObj.CmpList H op s.vec r :=
  C33_ObjectArrayList_exact cfg H fuel hf ext s _ hc hn hh

/-- C31, exactly, ObjectLinkedList. -/
theorem C31_linked_exact (strict : Bool) (s : OLState) (op : CmpOp) (r : List Obj)
    (hc : Covered ext s.heap (ObjLinked.vec s)) (hn : ((ObjLinked.vec s).length : Int) ≤ ssizeMax)
    (hh : Held ext s.heap (.cmp op (.list r))) :
    OAgrees (ObjLinked.view (ObjLinked.step H strict s (.cmp op (.list r)))) (Spec.ostep H (ObjLinked.vec s) (.cmp op (.list r))) ↔
      OObj.CmpList H op (ObjLinked.vec s) r :=
  C33_ObjectLinkedList_exact H strict ext s (.cmp op (.list r)) hc hn trivial hh

/-- C32, exactly, ObjectArrayList: assigning a sequence to a slice is right if and only if the step is 1. -/
theorem C32_exact (cfg : Cfg) (fuel : Nat) (hf : 0 < fuel) (s : OState) (sl : SliceArg) (i j : Option Int) (k : Int)
    (hs : Spec.fields sl = .ok (i, j, k)) (xs : List Obj) (hc : Covered ext s.heap s.vec)
    (hn : (s.vec.length : Int) ≤ ssizeMax) (hh : Held ext s.heap (.setSlice sl (.list xs))) :
    OAgrees (ObjArray.step cfg H fuel s (.setSlice sl (.list xs))) (Spec.ostep H s.vec (.setSlice sl (.list xs))) ↔ k = 1 := by
  refine (C33_ObjectArrayList_exact cfg H fuel hf ext s _ hc hn hh).trans ?_
  simp [ObjArray.Exact, hs]

/-- C32, exactly, ObjectLinkedList: if the lengths agree, or the step is 1 and the value is shorter, the slice does not end
before it starts, or the elements between its end and its start look the same with the value pushed in before them. -/
theorem C32_linked_exact (strict : Bool) (s : OLState) (sl : SliceArg) (i j : Option Int) (k : Int)
    (hs : Spec.fields sl = .ok (i, j, k)) (xs : List Obj) (hc : Covered ext s.heap (ObjLinked.vec s))
    (hn : ((ObjLinked.vec s).length : Int) ≤ ssizeMax) (hh : Held ext s.heap (.setSlice sl (.list xs))) :
    OAgrees (ObjLinked.view (ObjLinked.step H strict s (.setSlice sl (.list xs))))
        (Spec.ostep H (ObjLinked.vec s) (.setSlice sl (.list xs))) ↔
      ObjLinked.SliceExact (ObjLinked.vec s) xs (i, j, k) := by
  refine (C33_ObjectLinkedList_exact H strict ext s (.setSlice sl (.list xs)) hc hn trivial hh).trans ?_
  simp [ObjLinked.Exact, hs]

/-- C32, exactly, ObjectLinkedList, with the list itself as the value. Step 1: `l[:j] = l` if the elements from `j` on are all
the same, `l[i:j] = l` if elements at distance `i` are the same and, when `j < i`, those before `i` at distance `j` (1 for 0)
are the same as well; another step: the slice is the whole list and the list reads the same backwards (`SelfExact`). -/
theorem C32_linked_self_exact (strict : Bool) (s : OLState) (sl : SliceArg) (i j : Option Int) (k : Int)
    (hs : Spec.fields sl = .ok (i, j, k)) (hc : Covered ext s.heap (ObjLinked.vec s))
    (hn : ((ObjLinked.vec s).length : Int) ≤ ssizeMax) :
    OAgrees (ObjLinked.view (ObjLinked.step H strict s (.setSlice sl .self)))
        (Spec.ostep H (ObjLinked.vec s) (.setSlice sl .self)) ↔
      ObjLinked.SelfExact (ObjLinked.vec s) (i, j, k) := by
  refine (C33_ObjectLinkedList_exact H strict ext s (.setSlice sl .self) hc hn trivial
    (by intro x hx; cases hx)).trans ?_
  simp [ObjLinked.Exact, hs]

end objects

/-! ### Cases on both sides -/

section examples

private def py311 : Cfg := ⟨.le311, false, false, false, false⟩
private def py312 : Cfg := ⟨.v312, false, true, true, true⟩

-- 2^32 + 7 has the low bits of 7
example : AllFits .i32 [7, 8] ∧ ¬ FitsS 32 (2 ^ 32 + 7) ∧ (2 ^ Kind.i32.bits : Int) ∣ (2 ^ 32 + 7) - 7 ∧
    ¬ (2 ^ Kind.i32.bits : Int) ∣ (2 ^ 32 + 9) - 7 := by decide
example : Spec.position [7, 8].length (-1) = some 1 ∧ BoxOk py312 .i32 8 ∧ ¬ BoxOk py312 .i32 (-8) ∧ BoxOk py311 .i32 (-8) := by
  decide
example : ObjLinked.SelfExact [7, 7] (none, some 1, 1) ∧ ¬ ObjLinked.SelfExact [7, 8, 9] (none, some 1, 1) ∧
    ObjLinked.SelfExact [7, 8, 7] (none, none, -1) ∧ ¬ ObjLinked.SelfExact [7, 8] (none, none, -1) := by
  refine ⟨?_, ?_, ?_, ?_⟩
  · show ∀ x ∈ [7], _
    decide
  · show ¬ ∀ x ∈ [8, 9], _
    decide
  · exact ⟨rfl, rfl⟩
  · exact fun h => absurd h.2 (by decide)
example : Spec.fields ⟨some (.int 0), some (.int 1), none⟩ = .ok (some 0, some 1, 1) := rfl
example : Spec.compare .lt [4] [3, 5] = false ∧ decide ([4].length < [3, 5].length) = true := by decide

end examples

end Verif.Props
