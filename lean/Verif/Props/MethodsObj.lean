import Verif.Model.MethodsObj
import Verif.Spec.GuardMethodsObj
import Verif.Lemmas.Methods
import Verif.Props.ExactObj
import Verif.Props.ExactObjLinked

/-!
# C64: calls by name on object lists

The object lists, from the name and the arguments of a call to its outcome: `C64_exact_partial` with `C33_…_exact`.
-/

namespace Verif.Props

open Verif.Methods

/-- `*` and `*=` with the number that an object stands for. -/
private theorem counted_obj {exact : OOp → Prop} {H : OHost} {l : List Obj} {s : OState} (hs : s.vec = l) {f : Int → OOp}
    {o : OOp → OOut} (h : ∀ n, OAgrees (o (f n)) (Spec.ostep H l (f n)) ↔ exact (f n)) (t : Thing OSrc) :
    OAgrees (match times t with | (_, some e) => .exc s e | (n, none) => o (f n))
      (match t.arg with
        | .int n | .index n => if Spec.InRange 64 n then Spec.ostep H l (f n) else (l, .error .overflowError)
        | .other => (l, .error .typeError)) ↔
      ∀ n, Number t n → Spec.InRange 64 n → exact (f n) := by
  rcases times_cases t with ⟨n, hn, hr, hc⟩ | ⟨n, hn, hr, hc⟩ | ⟨ho, hc⟩
  · have e : (match t.arg with
        | .int n | .index n => if Spec.InRange 64 n then Spec.ostep H l (f n) else (l, .error .overflowError)
        | .other => (l, .error .typeError)) = Spec.ostep H l (f n) := by
      rcases hn with e | e <;> rw [e] <;> exact if_pos hr
    rw [e, hc]
    dsimp only
    rw [h]
    constructor
    · intro h m hm _
      rw [← number_unique hn hm]
      exact h
    · intro h; exact h n hn hr
  · have e : (match t.arg with
        | .int n | .index n => if Spec.InRange 64 n then Spec.ostep H l (f n) else (l, .error .overflowError)
        | .other => (l, .error .typeError)) = (l, .error .overflowError) := by
      rcases hn with e | e <;> rw [e] <;> exact if_neg hr
    rw [e, hc]
    refine iff_of_true ⟨hs, rfl⟩ (fun m hm hr' => ?_)
    rw [← number_unique hn hm] at hr'
    exact absurd hr' hr
  · rw [hc, ho]
    refine iff_of_true ⟨hs, rfl⟩ (fun m hm _ => ?_)
    unfold Number at hm
    rw [ho] at hm
    rcases hm with hm | hm <;> cases hm

/-- The caller holds every object that the call passes. -/
def HeldBy (ext : Obj → Nat) (h : Heap) (name : Name) (c : Args OSrc) : Prop :=
  ∀ r op, documented name c = .ok r → r.oop = some op → Held ext h op

private theorem perform_obj {cfg : Cfg} {H : OHost} {fuel : Nat} (hf : 0 < fuel) {ext : Obj → Nat} {s : OState}
    (hc : Covered ext s.heap s.vec) (hn : (s.vec.length : Int) ≤ ssizeMax) (r : Request OSrc)
    (hp : ∀ op, r.oop = some op → Held ext s.heap op) :
    OMatches (performObj cfg H fuel s r) (pyPerformObj H s.vec r) (ExactCallObj (ObjArray.Exact H s.vec) r) := by
  have gen : ∀ op, r.oop = some op → OMatches (r.oop.map (ObjArray.step cfg H fuel s)) (r.oop.map (Spec.ostep H s.vec))
      (∀ op, r.oop = some op → ObjArray.Exact H s.vec op) := by
    intro op h
    have := C33_ObjectArrayList_exact cfg H fuel hf ext s op hc hn (hp op h)
    rw [h]
    simp only [OMatches, Option.map_some, Option.some.injEq, forall_eq']
    exact this
  have nil : ∀ op, Spec.mentioned op = [] → Held ext s.heap op := by
    intro op h o ho
    rw [h] at ho; cases ho
  cases r with
  | mul t =>
    exact counted_obj rfl (fun n => C33_ObjectArrayList_exact cfg H fuel hf ext s (.mul n) hc hn (nil _ rfl)) t
  | imul t =>
    exact counted_obj rfl (fun n => C33_ObjectArrayList_exact cfg H fuel hf ext s (.imul n) hc hn (nil _ rfl)) t
  | sort | range | iter | reversed | repr => exact trivial
  | _ => exact gen _ rfl

/-- C64 with C33: any call of a method of ObjectArrayList by name, with any arguments, does what the call does on a Python list, exactly if
it does not deviate and what it asks for is in `Exact`. (`OMatches` leaves out calls that ask for an iterator or the text of the
list.) -/
theorem C64_ObjectArrayList_exact (cfg : Cfg) (H : OHost) (fuel : Nat) (hf : 0 < fuel) (ext : Obj → Nat) (s : OState)
    (name : Name) (c : Args OSrc) (hcov : Covered ext s.heap s.vec) (hn : (s.vec.length : Int) ≤ ssizeMax) (hc : Proper c)
    (hs : name ≠ .sort) (hhas : Has .objArray name = true) (hh : HeldBy ext s.heap name c) :
    OMatches (callObj cfg H fuel s name c) (pyCallObj H s.vec name c)
      (¬ Deviates .objArray s.vec.isEmpty name c ∧
        ∀ r, documented name c = .ok r → ExactCallObj (ObjArray.Exact H s.vec) r) := by
  unfold callObj pyCallObj
  rw [request_named hhas]
  rcases named_or (cls := .objArray) (empty := s.vec.isEmpty) hc hs with ⟨h1, h2⟩ | ⟨h1, h2, h3⟩
  · rw [h2]
    cases e : documented name c with
    | error x =>
      exact iff_of_true ⟨rfl, rfl⟩ ⟨h1, fun r hr => by cases hr⟩
    | ok r =>
      have := perform_obj (cfg := cfg) (H := H) hf hcov hn r (fun op => hh r op e)
      simp only [h1, not_false_eq_true, true_and, Except.ok.injEq, forall_eq']
      exact this
  · rw [h2, h3]
    refine iff_of_false ?_ (fun h => h.1 h1)
    rintro ⟨-, h⟩
    cases h

private theorem perform_obj_linked {H : OHost} {strict : Bool} {ext : Obj → Nat} {s : OLState}
    (hc : Covered ext s.heap (ObjLinked.vec s)) (hn : ((ObjLinked.vec s).length : Int) ≤ ssizeMax) (r : Request OSrc)
    (hp : ∀ op, r.oop = some op → Held ext s.heap op ∧ ObjLinked.Covers op) :
    OMatches ((performObjLinked H strict s r).map ObjLinked.view) (pyPerformObj H (ObjLinked.vec s) r)
      (ExactCallObj (ObjLinked.Exact H strict (ObjLinked.vec s)) r) := by
  have gen : ∀ op, r.oop = some op → OMatches ((r.oop.map (ObjLinked.step H strict s)).map ObjLinked.view)
      (r.oop.map (Spec.ostep H (ObjLinked.vec s)))
      (∀ op, r.oop = some op → ObjLinked.Exact H strict (ObjLinked.vec s) op) := by
    intro op h
    have := C33_ObjectLinkedList_exact H strict ext s op hc hn (hp op h).2 (hp op h).1
    rw [h]
    simp only [OMatches, Option.map_some, Option.some.injEq, forall_eq']
    exact this
  have nil : ∀ op, Spec.mentioned op = [] → Held ext s.heap op := by
    intro op h o ho
    rw [h] at ho; cases ho
  have num : ∀ (f : Int → OOp) (t : Thing OSrc), (∀ n, ObjLinked.Covers (f n) ∧ Spec.mentioned (f n) = []) →
      OMatches (some (ObjLinked.view (match times t with
          | (_, some e) => .exc s e | (n, none) => ObjLinked.step H strict s (f n))))
        (some (match t.arg with
        | .int n | .index n => if Spec.InRange 64 n then Spec.ostep H (ObjLinked.vec s) (f n)
          else (ObjLinked.vec s, .error .overflowError)
        | .other => (ObjLinked.vec s, .error .typeError)))
        (∀ n, Number t n → Spec.InRange 64 n → ObjLinked.Exact H strict (ObjLinked.vec s) (f n)) := by
    intro f t h
    have := counted_obj (s := ⟨ObjLinked.vec s, s.heap⟩) rfl
      (fun n => C33_ObjectLinkedList_exact H strict ext s (f n) hc hn (h n).1 (nil _ (h n).2)) (o := fun op =>
      ObjLinked.view (ObjLinked.step H strict s op)) t
    unfold OMatches
    rw [← this]
    rcases times t with ⟨n, _ | e⟩ <;> exact Iff.rfl
  cases r with
  | mul t => exact num .mul t (fun _ => ⟨trivial, rfl⟩)
  | imul t => exact num .imul t (fun _ => ⟨trivial, rfl⟩)
  | sort | range | iter | reversed | repr => exact trivial
  | _ => exact gen _ rfl

/-- C64 with C33: the same for ObjectLinkedList, which has no `resize` (`Covers`). -/
theorem C64_ObjectLinkedList_exact (H : OHost) (strict : Bool) (ext : Obj → Nat) (s : OLState) (name : Name) (c : Args OSrc)
    (hcov : Covered ext s.heap (ObjLinked.vec s)) (hn : ((ObjLinked.vec s).length : Int) ≤ ssizeMax) (hc : Proper c)
    (hs : name ≠ .sort) (hhas : Has .objLinked name = true) (hh : HeldBy ext s.heap name c)
    (hl : ∀ r op, documented name c = .ok r → r.oop = some op → ObjLinked.Covers op) :
    OMatches ((callObjLinked H strict s name c).map ObjLinked.view) (pyCallObj H (ObjLinked.vec s) name c)
      (¬ Deviates .objLinked (ObjLinked.vec s).isEmpty name c ∧
        ∀ r, documented name c = .ok r → ExactCallObj (ObjLinked.Exact H strict (ObjLinked.vec s)) r) := by
  unfold callObjLinked pyCallObj
  rw [request_named hhas]
  rcases named_or (cls := .objLinked) (empty := (ObjLinked.vec s).isEmpty) hc hs with ⟨h1, h2⟩ | ⟨h1, h2, h3⟩
  · rw [h2]
    cases e : documented name c with
    | error x =>
      exact iff_of_true ⟨rfl, rfl⟩ ⟨h1, fun r hr => by cases hr⟩
    | ok r =>
      have := perform_obj_linked (H := H) (strict := strict) hcov hn r (fun op h => ⟨hh r op e h, hl r op e h⟩)
      simp only [h1, not_false_eq_true, true_and, Except.ok.injEq, forall_eq']
      exact this
  · rw [h2, h3]
    refine iff_of_false ?_ (fun h => h.1 h1)
    rintro ⟨-, h⟩
    cases h

/-! ### The hypotheses are satisfiable -/

section examples

/-- The object `o`, not a number, as an argument. -/
def thingOf (o : Obj) : Thing OSrc := ⟨.other, none, .notIterable, false, true, o⟩

/-- The number `n`, the object 100, as an argument. -/
def numObj (n : Int) : Thing OSrc := ⟨.int n, none, .notIterable, false, n ≠ 0, 100⟩

/-- Two objects held once by the list and once by the client, and a number held by the client. -/
def callHeap : Heap := ⟨fun _ => false, fun o => if o = 4 ∨ o = 5 then 2 else 1⟩

example : Covered (fun _ => 1) callHeap [4, 5] ∧ Proper (⟨[numObj 0, thingOf 5], []⟩ : Args OSrc) ∧
    HeldBy (fun _ => 1) callHeap .insert ⟨[numObj 0, thingOf 5], []⟩ ∧
    (∀ r op, documented .insert (⟨[numObj 0, thingOf 5], []⟩ : Args OSrc) = .ok r → r.oop = some op → ObjLinked.Covers op) ∧
    (∀ r, documented .insert (⟨[numObj 0, thingOf 5], []⟩ : Args OSrc) = .ok r →
      ExactCallObj (ObjArray.Exact exHost [4, 5]) r) := by
  refine ⟨?_, by decide, fun r op _ _ o _ => .inr Nat.one_pos, ?_, ?_⟩
  · intro o _
    by_cases h4 : o = 4
    · subst h4; decide
    by_cases h5 : o = 5
    · subst h5; decide
    · have : List.count o [4, 5] = 0 := List.count_eq_zero.2 (by simp [h4, h5])
      rw [this]
      simp [callHeap, h4, h5]
  · intro r op h h'
    cases h; cases h'; trivial
  · intro r h
    cases h
    intro op h
    cases h; trivial
example : (callObj ⟨.le311, false, false, false, false⟩ exHost 1 ⟨[4, 5], callHeap⟩ .insert ⟨[numObj 0, thingOf 5], []⟩).map
    (fun o => match o with | .ok s r => some (s.vec, r) | _ => none) = some (some ([5, 4, 5], .none)) := by decide +kernel

end examples

end Verif.Props
