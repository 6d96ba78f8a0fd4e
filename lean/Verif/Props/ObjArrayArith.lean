import Verif.Props.ObjArrayList

/-!
# ObjectArrayList: concatenation, repetition, reversal

C10 to C13 and C18 for ObjectArrayList.
-/

namespace Verif.Props

open Heap ObjArray

/-- C10 (ObjectArrayList). `l + other` with a Python list is a new Python list with both contents, `l` is unchanged
and exactly the new list's references are counted. -/
theorem C10_ObjectArrayList_add_list (cfg : Cfg) (H : OHost) (fuel : Nat) (hf : 0 < fuel) (ext : Obj → Nat)
    (s : OState) (xs : List Obj) (hb : Balanced ext s.heap s.vec) (hh : ∀ o ∈ xs, s.heap.imm o = true ∨ 0 < ext o) :
    ∃ s', step cfg H fuel s (.add (.list xs)) = .ok s' (.list (s.vec ++ xs)) ∧ s'.vec = s.vec ∧
      Balanced (fun o => ext o + (s.vec ++ xs).count o) s'.heap s'.vec := by
  have hc : Covered ext s.heap s.vec := fun o h => Nat.le_of_eq (hb o h).symm
  obtain ⟨h', e, a⟩ := step_does cfg H fuel hf hc (op := .add (.list xs)) ⟨by simp, by simp⟩ (fun o ho => hh o ho)
  exact ⟨_, e, rfl, balanced_after hb a⟩

/-- C10, deviation: `l + other` with a list of the same class, or with itself, raises MemoryError; Python gives the
concatenation. -/
theorem C10_ObjectArrayList_add_same_fails (cfg : Cfg) (H : OHost) (fuel : Nat) (s : OState) (v : List Obj) :
    (step cfg H fuel s (.add (.same v)) = .exc s .memoryError ∧ step cfg H fuel s (.add .self) = .exc s .memoryError) ∧
    Spec.ostep H s.vec (.add (.same v)) = (s.vec, .ok (.newList (s.vec ++ v))) := ⟨⟨rfl, rfl⟩, rfl⟩

/-- C11 (ObjectArrayList). `l * n` is a new list with `max n 0` copies, `l` is unchanged and exactly the new list's
references are counted. -/
theorem C11_ObjectArrayList_mul (cfg : Cfg) (H : OHost) (fuel : Nat) (ext : Obj → Nat)
    (s : OState) (n : Int) (hb : Balanced ext s.heap s.vec) :
    ∃ s', step cfg H fuel s (.mul n) = .ok s' (.newList (List.replicate n.toNat s.vec).flatten) ∧ s'.vec = s.vec ∧
      Balanced (fun o => ext o + (List.replicate n.toNat s.vec).flatten.count o) s'.heap s'.vec := by
  have hc : Covered ext s.heap s.vec := fun o h => Nat.le_of_eq (hb o h).symm
  obtain ⟨h', e, a⟩ := mul_does hc n
  exact ⟨_, e, rfl, balanced_after hb a⟩

example : Balanced (fun _ => 0) (exHeap fun o => if o = 4 then 2 else 0) [4, 4] := by
  intro o ho
  by_cases h4 : o = 4
  · subst h4; rfl
  · simp [exHeap, h4, Ne.symm h4]

/-- C12 (ObjectArrayList). `l *= n` for `n ≤ 1`, or on an empty list, leaves `max n 0` copies. -/
theorem C12_ObjectArrayList_imul_partial (cfg : Cfg) (H : OHost) (fuel : Nat) (hf : 0 < fuel) (s : OState) (n : Int)
    (hn : n ≤ 1 ∨ s.vec = []) :
    ∃ s', step cfg H fuel s (.imul n) = .ok s' .self ∧ s'.vec = (List.replicate n.toNat s.vec).flatten := by
  obtain ⟨h', e, _⟩ := imul_does fuel hf n hn H
  exact ⟨_, e, rfl⟩

/-- C12, deviation: `l *= n` with `n ≥ 2` never returns, for every non-empty list: after any number of iterations it
is still running. -/
theorem C12_ObjectArrayList_imul_never_returns (cfg : Cfg) (H : OHost) (fuel : Nat) (ext : Obj → Nat) (s : OState)
    (n : Int) (hn : 2 ≤ n) (hne : s.vec ≠ []) (hc : Covered ext s.heap s.vec) :
    step cfg H fuel s (.imul n) = .ub .neverReturns := by
  have hlive : ∀ o ∈ s.vec, s.heap.imm o = true ∨ 0 < s.heap.rc o := fun o ho => hc.live ho
  have h1 := imulInner_none fuel 0 s.vec s.heap (List.length_pos_iff.2 hne) hlive
  show imul fuel s n = _
  unfold imul
  have h2 : ¬ n < 0 := by omega
  have h3 : ¬ n = 0 := by omega
  simp only [h2, h3, if_false]
  obtain ⟨k, hk⟩ : ∃ k, n.toNat - 1 = k + 1 := ⟨n.toNat - 2, by omega⟩
  rw [hk, imulOuter, h1]

example : Covered (fun _ => 0) (exHeap fun _ => 1) [4] := by
  intro o _
  have : List.count o [4] ≤ 1 := List.count_le_length
  show 0 + _ ≤ 1
  omega

/-- C13 (ObjectArrayList). `l += s` with anything iterable but a list of the class appends the items, those before an
exception included, and gives the list; each is counted once. -/
theorem C13_ObjectArrayList_iadd_partial (cfg : Cfg) (H : OHost) (fuel : Nat) (hf : 0 < fuel) (ext : Obj → Nat)
    (s : OState) (src : OSrc) (hs : src ≠ .self ∧ ∀ v, src ≠ .same v) (hc : Covered ext s.heap s.vec)
    (hh : Held ext s.heap (.iadd src)) :
    OAgrees (step cfg H fuel s (.iadd src)) (Spec.ostep H s.vec (.iadd src)) :=
  (step_does cfg H fuel hf hc (op := .iadd src) hs hh).agrees

example : (OSrc.iter [4, 5] (some .typeError)) ≠ .self ∧ ∀ v, (OSrc.iter [4, 5] (some .typeError)) ≠ .same v :=
  ⟨by simp, by simp⟩

/-- C13 (ObjectArrayList). `extend` agrees with a Python list for everything but the list itself. -/
theorem C13_ObjectArrayList_extend_partial (cfg : Cfg) (H : OHost) (fuel : Nat) (hf : 0 < fuel) (ext : Obj → Nat)
    (s : OState) (src : OSrc) (hs : src ≠ .self) (hc : Covered ext s.heap s.vec)
    (hh : Held ext s.heap (.extend src)) :
    OAgrees (step cfg H fuel s (.extend src)) (Spec.ostep H s.vec (.extend src)) :=
  (step_does cfg H fuel hf hc (op := .extend src) hs hh).agrees

/-- C13, deviation: `l += other` with a list of the class appends the contents but gives None, so the variable is
lost. -/
theorem C13_ObjectArrayList_iadd_same_none (cfg : Cfg) (H : OHost) (fuel : Nat) (s : OState) (v : List Obj)
    (hl : ∀ o ∈ v, s.heap.imm o = true ∨ 0 < s.heap.rc o) :
    ∃ s', step cfg H fuel s (.iadd (.same v)) = .ok s' .none ∧ s'.vec = s.vec ++ v := by
  obtain ⟨h', e, _⟩ := increfs_ok hl
  refine ⟨⟨s.vec ++ v, h'⟩, ?_, rfl⟩
  show iadd s (.same v) = _
  simp only [iadd, e, withHeap]

/-- C13, deviation: `l.extend(l)` and `l += l` hand the vector iterators into itself. -/
theorem C13_ObjectArrayList_self_undefined (cfg : Cfg) (H : OHost) (fuel : Nat) (s : OState)
    (hl : ∀ o ∈ s.vec, s.heap.imm o = true ∨ 0 < s.heap.rc o) :
    step cfg H fuel s (.extend .self) = .ub .badIterator ∧ step cfg H fuel s (.iadd .self) = .ub .badIterator := by
  obtain ⟨h', e, _⟩ := increfs_ok hl
  refine ⟨rfl, ?_⟩
  show iadd s .self = _
  simp only [iadd, e, withHeap]

example : ∀ o ∈ [4, 5], (exHeap fun _ => 1).imm o = true ∨ 0 < (exHeap fun _ => 1).rc o := fun _ _ => .inr Nat.one_pos

/-- C18 (ObjectArrayList). `reverse()` reverses the contents on every CPU and leaves every count as it is. -/
theorem C18_ObjectArrayList_reverse (cfg : Cfg) (H : OHost) (fuel : Nat) (s : OState) :
    step cfg H fuel s .reverse = .ok ⟨s.vec.reverse, s.heap⟩ .none := reverse_eq cfg s

end Verif.Props
