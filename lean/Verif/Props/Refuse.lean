import Verif.Lemmas.RefuseLeak
import Verif.Lemmas.RefuseInt

/-!
# C60: a list of objects that cannot get memory raises, keeps its elements and loses no references

The machine is arbitrary: it may grant or refuse each request for memory. A user of ObjectArrayList and ObjectLinkedList
expects what Python's list does: the call succeeds as if memory were unlimited, or it raises, the list is unchanged and every
object is counted as often as before.
-/

namespace Verif.Props

open Verif.Spec (shown Spared Sparing GrantsBytes spaceFor Leaked history)
open Verif.Refuse

/-- Objects 1 to 9 with three references each, for the examples. -/
private def heap9 : Heap := ⟨fun _ => false, fun o => if o < 10 then 3 else 0⟩

private def host0 : OHost := ⟨0, fun _ => true, fun _ x y => .ok (x == y)⟩

private def linked (l : List Obj) : OLState := ⟨LState.pushAll ⟨[], 0, 0⟩ l, heap9⟩

/-- Outside `extend`, `+=`, `*=` and slice assignment: on every machine, in every state, a call on an ObjectArrayList does
what it does with unlimited memory, or it raises RuntimeError and neither the elements nor any reference count have
changed. The full claim, for all calls, is false of the code: `C60_extend_array_negation`, `C60_imul_array_negation`,
`C60_slice_array_negation`. -/
theorem C60_array_partial (cfg : Cfg) (H : OHost) (m : Arr.Machine) (fuel : Nat) (s : Arr.St) (op : OOp) (hint : Nat)
    (hop : Sparing op = true) :
    Spared s.1 (ObjArray.step cfg H fuel s.1 op) (Arr.step cfg H m fuel s op hint) :=
  Arr.step_spared cfg H m fuel s op hint hop

/-- `[1, 2, 3] * 4` on a machine with 64 bytes raises; with 96 bytes it is done. -/
example : shown (Arr.step ⟨.ge313, false, false, false, false⟩ host0 (fun _ b => decide (b ≤ 64)) 0
      (⟨[1, 2, 3], heap9⟩, ⟨3, 0⟩) (.mul 4) 0) = .exc ⟨[1, 2, 3], heap9⟩ .runtimeError ∧
    Sparing (.mul 4) = true := ⟨rfl, rfl⟩
example : ∃ h, shown (Arr.step ⟨.ge313, false, false, false, false⟩ host0 (fun _ b => decide (b ≤ 96)) 0
      (⟨[1, 2, 3], heap9⟩, ⟨3, 0⟩) (.mul 4) 0) =
    .ok ⟨[1, 2, 3], h⟩ (.newList [1, 2, 3, 1, 2, 3, 1, 2, 3, 1, 2, 3]) := ⟨_, rfl⟩

/-- The same for an ObjectLinkedList, whose every node is a request of its own. The full claim is false of the code:
`C60_extend_linked_negation`, `C60_imul_linked_negation`, `C60_slice_linked_negation`. -/
theorem C60_linked_partial (H : OHost) (strict : Bool) (m : Lnk.Machine) (s : Lnk.St) (op : OOp) (hop : Sparing op = true) :
    Spared s.1 (ObjLinked.step H strict s.1 op) (Lnk.step H strict m s op) :=
  Lnk.step_spared H strict m s op hop

/-- `[1, 2] * 2` on a machine that refuses the third node: the two references counted so far are given back. -/
example : ∃ s, shown (Lnk.step host0 false (fun t => t != 2) (linked [1, 2], 0) (.mul 2)) = .exc s .runtimeError ∧
    s.list = (linked [1, 2]).list ∧ s.heap.rc 1 = 3 ∧ s.heap.rc 2 = 3 := ⟨_, rfl, rfl, rfl, rfl⟩

/-- Histories: after any number of such calls on any machine, list and counts are those that the calls which were not refused
lead to with unlimited memory. -/
theorem C60_array_history_partial (cfg : Cfg) (H : OHost) (m : Arr.Machine) (fuel : Nat) (s s' : Arr.St)
    (calls : List (OOp × Nat)) (hops : ∀ c ∈ calls, Sparing c.1 = true)
    (h : history (fun s c => Arr.step cfg H m fuel s c.1 c.2) s calls = some s') :
    ∃ done, done.Sublist calls ∧ history (fun s c => ObjArray.step cfg H fuel s c.1) s.1 done = some s'.1 :=
  history_spared _ _ calls (fun s c hc => Arr.step_spared cfg H m fuel s c.1 c.2 (hops c hc)) s s' h

theorem C60_linked_history_partial (H : OHost) (strict : Bool) (m : Lnk.Machine) (s s' : Lnk.St) (calls : List OOp)
    (hops : ∀ c ∈ calls, Sparing c = true) (h : history (fun s c => Lnk.step H strict m s c) s calls = some s') :
    ∃ done, done.Sublist calls ∧ history (fun s c => ObjLinked.step H strict s c) s.1 done = some s'.1 :=
  history_spared _ _ calls (fun s c hc => Lnk.step_spared H strict m s c (hops c hc)) s s' h

/-- Three appends of which the second is refused. -/
example : ∃ s', history (fun s c => Lnk.step host0 false (fun t => t != 1) s c) (linked [], 0)
      [.append 1, .append 2, .append 3] = some s' ∧ ObjLinked.vec s'.1 = [1, 3] ∧ s'.1.heap.rc 2 = 3 :=
  ⟨_, rfl, rfl, rfl⟩

/-- Within what the machine grants — twice the elements the call needs room for, because a vector doubles its storage —
every call on an ObjectArrayList does what it does with unlimited memory; `l *= n` is excluded for `n` at least 2 on a list
with elements, which never ends in the unlimited model. -/
theorem C60_array_enough (cfg : Cfg) (H : OHost) (m : Arr.Machine) (b : Nat) (hg : GrantsBytes b m) (hb : b ≤ 2 ^ 63 - 1)
    (fuel : Nat) (s : Arr.St) (op : OOp) (hint : Nat) (h : 16 * spaceFor s.1.vec.length hint op ≤ b)
    (hi : ∀ n, op = .imul n → n ≤ 1 ∨ s.1.vec = []) :
    shown (Arr.step cfg H m fuel s op hint) = ObjArray.step cfg H fuel s.1 op :=
  Arr.step_enough cfg H hg hb fuel s op hint h hi

example : GrantsBytes 1000000 (fun _ n => decide (n ≤ 1000000)) ∧
    16 * spaceFor ([1, 2, 3] : List Obj).length 0 (.setSlice ⟨none, none, none⟩ (.tuple [4, 5, 6, 7])) ≤ 1000000 :=
  ⟨fun _ _ h => decide_eq_true h, by decide⟩

/-- A machine that grants every node: every call on an ObjectLinkedList does what it does with unlimited memory. -/
theorem C60_linked_enough (H : OHost) (strict : Bool) (m : Lnk.Machine) (hg : ∀ t, m t = true) (s : Lnk.St) (op : OOp) :
    shown (Lnk.step H strict m s op) = ObjLinked.step H strict s.1 op :=
  Lnk.step_enough H strict hg s op

example : ∀ t : Nat, (fun _ => true : Lnk.Machine) t = true := fun _ => rfl

/-- `copy()` of an ObjectLinkedList needs exactly one node for each element: with them it is done, whatever the machine does
with later requests; with one of them refused it raises and everything is as before. -/
theorem C60_linked_copy_exact (H : OHost) (strict : Bool) (m : Lnk.Machine) (s : Lnk.St) :
    (Spec.GrantsNext m s.2 (ObjLinked.vec s.1).length →
      shown (Lnk.step H strict m s .copy) = ObjLinked.step H strict s.1 .copy) ∧
    (∀ i, s.2 ≤ i → i < s.2 + (ObjLinked.vec s.1).length → m i = false →
      (∀ o ∈ ObjLinked.vec s.1, s.1.heap.imm o = true ∨ 0 < s.1.heap.rc o) →
      shown (Lnk.step H strict m s .copy) = .exc s.1 .runtimeError) := by
  have hn : (ObjLinked.vec s.1).length = s.1.list.size := by simp [ObjLinked.vec, LState.vals, LState.size]
  rw [hn]
  refine ⟨fun h => ?_, fun i h1 h2 h hl => ?_⟩
  · show shown (guarded (fun _ t => Lnk.nodes m s.1.list.size t) s.1 s.2 (ObjLinked.copy s.1)) = ObjLinked.copy s.1
    unfold guarded
    dsimp only
    rw [RefuseInt.nodes_granted h]
    cases ObjLinked.copy s.1 <;> rfl
  · have hr := RefuseInt.nodes_refused h1 h2 h
    show shown (guarded (fun _ t => Lnk.nodes m s.1.list.size t) s.1 s.2 (ObjLinked.copy s.1)) = _
    obtain ⟨h', e, _⟩ := Heap.increfs_ok hl
    have : ∃ s' v, ObjLinked.copy s.1 = .ok s' v := by
      unfold ObjLinked.copy
      rw [e]
      exact ⟨_, _, rfl⟩
    obtain ⟨s', v, e2⟩ := this
    rw [e2]
    unfold guarded
    rcases e3 : Lnk.nodes m s.1.list.size s.2 with ⟨t, b⟩
    rw [e3] at hr
    dsimp only at hr
    subst hr
    dsimp only
    rw [e3]
    rfl

example : Spec.GrantsNext (fun t => decide (t < 2)) (linked [1, 2], 0).2 (ObjLinked.vec (linked [1, 2], 0).1).length := by
  intro i _ h
  exact decide_eq_true h

/-- A refused request for memory while an ObjectLinkedList is made from another one: RuntimeError, and what is destroyed
then holds nothing. -/
theorem C60_create_linked_same (m : Lnk.Machine) (h : Heap) (t : Nat) (v : List Obj) (i : Nat) (h1 : t ≤ i)
    (h2 : i < t + v.length) (hr : m i = false) :
    ∃ s', Lnk.init m h t (.same v) = .exc s' .runtimeError ∧ ObjLinked.vec s'.1 = [] ∧ s'.1.heap = h := by
  have hn := RefuseInt.nodes_refused h1 h2 hr
  rcases e : Lnk.nodes m v.length t with ⟨t', b⟩
  rw [e] at hn
  dsimp only at hn
  subst hn
  refine ⟨(⟨⟨[], 0, 0⟩, h⟩, t'), ?_, rfl, rfl⟩
  unfold Lnk.init
  dsimp only
  rw [e]

example : (0 : Nat) ≤ 1 ∧ 1 < 0 + [5, 6, 7].length ∧ (fun t => t != 1 : Lnk.Machine) 1 = false := ⟨by decide, by decide, rfl⟩

/-- A request for more than 2^60 - 1 elements is refused by the vector itself, whatever the machine: `resize` raises and the
list is unchanged. -/
theorem C60_resize_huge (cfg : Cfg) (H : OHost) (m : Arr.Machine) (fuel : Nat) (s : Arr.St) (v : Int) (hint : Nat)
    (hc : s.2.cap ≤ 1152921504606846975) (hl : s.1.vec.length ≤ s.2.cap) (hv : 1152921504606846975 < v) (h64 : v < 2 ^ 63) :
    shown (Arr.step cfg H m fuel s (.resize (.int v)) hint) = .exc s.1 .runtimeError := by
  have h1 : asSsize (.int v) = (v, none) := by
    unfold asSsize
    dsimp only
    rw [if_pos (by simp only [FitsS]; omega)]
  show shown (Arr.grow m s (ObjArray.resize H s.1 (.int v))) = _
  unfold Arr.grow ObjArray.resize
  dsimp only
  rw [h1]
  dsimp only
  rw [if_neg (by omega)]
  unfold guarded Arr.makeRoom
  dsimp only
  have h2 : (s.1.vec.take v.toNat ++ List.replicate (v.toNat - s.1.vec.length) H.none).length - s.1.vec.length =
      v.toNat - s.1.vec.length := by
    simp only [List.length_append, List.length_take, List.length_replicate]; omega
  rw [h2, Arr.maxSize_eq, if_neg (by omega), if_pos (by omega)]
  rfl

example : (1152921504606846975 : Int) < 2 ^ 62 ∧ (2 ^ 62 : Int) < 2 ^ 63 := by decide

/-! ### Negations -/

/-- `extend` and `+=` of an ObjectArrayList that must grow end the process when the machine refuses: a Python list of live
objects, an ObjectArrayList of live objects. -/
theorem C60_extend_array_negation (cfg : Cfg) (H : OHost) (m : Arr.Machine) (fuel : Nat) (s : Arr.St) (v : List Obj)
    (hint : Nat) (hfull : s.2.cap - s.1.vec.length < v.length) (hrefuse : ∀ t n, m t n = false)
    (hl : ∀ o ∈ v, s.1.heap.imm o = true ∨ 0 < s.1.heap.rc o) :
    Arr.step cfg H m fuel s (.extend (.list v)) hint = .ub .terminate ∧
    Arr.step cfg H m fuel s (.extend (.same v)) hint = .ub .terminate ∧
    Arr.step cfg H m fuel s (.iadd (.same v)) hint = .ub .terminate := by
  obtain ⟨h', e, _⟩ := Heap.increfs_ok hl
  have hr : (Arr.makeRoom m v.length s.1.vec.length s.2).2 = false := by
    unfold Arr.makeRoom
    rw [if_neg (by omega)]
    split
    · rfl
    · unfold Arr.getBlock; rw [hrefuse]; rfl
  refine ⟨?_, ?_, ?_⟩
  · obtain ⟨u, h1, h2⟩ := orDie_refused (out := ObjArray.extend s.1 (.list v)) hr
    rw [h2 (by intro u; unfold ObjArray.extend; dsimp only; rw [e]; exact nofun)] at h1
    exact h1
  · obtain ⟨u, h1, h2⟩ := orDie_refused (out := ObjArray.extend s.1 (.same v)) hr
    rw [h2 (by intro u; unfold ObjArray.extend; dsimp only; rw [e]; exact nofun)] at h1
    exact h1
  · obtain ⟨u, h1, h2⟩ := orDie_refused (out := ObjArray.iadd s.1 (.same v)) hr
    rw [h2 (by intro u; unfold ObjArray.iadd; dsimp only; rw [e]; exact nofun)] at h1
    exact h1

/-- An iterator that announces too many items ends the process before the first of them is asked for. -/
theorem C60_hint_negation (cfg : Cfg) (H : OHost) (m : Arr.Machine) (fuel : Nat) (s : Arr.St) (xs : List Obj)
    (f : Option Exc) (hint : Nat) (h : 1152921504606846975 < hint) :
    Arr.step cfg H m fuel s (.extend (.iter xs f)) hint = .ub .terminate ∧
    Arr.step cfg H m fuel s (.iadd (.iter xs f)) hint = .ub .terminate := by
  have hr : ∀ n, (Arr.askItems m s.1.vec.length (Arr.hintOf (.iter xs f) hint) n s.2).2 = false := by
    intro n
    unfold Arr.askItems Arr.hintOf Arr.reserve
    dsimp only
    rw [Arr.maxSize_eq, if_pos (by omega), if_pos (by omega)]
  refine ⟨?_, ?_⟩
  · obtain ⟨u, h1, h2⟩ := orDie_refused (out := ObjArray.extend s.1 (.iter xs f)) (hr _)
    rw [h2 (by intro u; unfold ObjArray.extend ObjArray.extendIter; cases f <;> exact nofun)] at h1
    exact h1
  · obtain ⟨u, h1, h2⟩ := orDie_refused (out := ObjArray.iadd s.1 (.iter xs f)) (hr _)
    rw [h2 (by intro u; unfold ObjArray.iadd ObjArray.extendIter; cases f <;> exact nofun)] at h1
    exact h1

/-- One node refused in `extend` or `+=` of an ObjectLinkedList ends the process, even when the process could go on. -/
theorem C60_extend_linked_negation (H : OHost) (strict : Bool) (m : Lnk.Machine) (s : Lnk.St) (o : Obj) (xs : List Obj)
    (f : Option Exc) (hrefuse : m s.2 = false) :
    Lnk.step H strict m s (.extend (.iter (o :: xs) f)) = .ub .terminate ∧
    Lnk.step H strict m s (.iadd (.iter (o :: xs) f)) = .ub .terminate ∧
    Lnk.step H strict m s (.extend (.list (o :: xs))) = .ub .terminate := by
  have hr : (Lnk.nodes m (xs.length + 1) s.2).2 = false := by
    unfold Lnk.nodes
    rw [asks]
    unfold Lnk.node
    rw [hrefuse]
  refine ⟨?_, ?_, ?_⟩
  · obtain ⟨u, h1, h2⟩ := orDie_refused (out := ObjLinked.extend strict s.1 (.iter (o :: xs) f)) hr
    rw [h2 (by intro u; unfold ObjLinked.extend ObjLinked.extendIter; cases f <;> exact nofun)] at h1
    exact h1
  · obtain ⟨u, h1, h2⟩ := orDie_refused (out := ObjLinked.iadd strict s.1 (.iter (o :: xs) f)) hr
    rw [h2 (by intro u; unfold ObjLinked.iadd ObjLinked.extendIter; cases f <;> exact nofun)] at h1
    exact h1
  · obtain ⟨u, h1, h2⟩ := orDie_refused (out := ObjLinked.extend strict s.1 (.list (o :: xs))) hr
    rw [h2 (by intro u; unfold ObjLinked.extend ObjLinked.extendIter; exact nofun)] at h1
    exact h1

/-- `l *= n` with `n` at least 2 on an ObjectArrayList with elements raises RuntimeError on every machine, however much
memory it has; the list keeps what was stored on the way, and is longer than before whenever the room for the product was
granted. -/
theorem C60_imul_array_negation (cfg : Cfg) (H : OHost) (m : Arr.Machine) (s : Arr.St) (n : Int) (hint : Nat) (hn : 2 ≤ n)
    (hv : s.1.vec ≠ []) (hfit : s.1.vec.length * n.toNat < 2 ^ 64)
    (hl : ∀ o ∈ s.1.vec, s.1.heap.imm o = true ∨ 0 < s.1.heap.rc o) :
    ∃ fuel0, ∀ fuel, fuel0 ≤ fuel → ∃ s', Arr.step cfg H m fuel s (.imul n) hint = .exc s' .runtimeError ∧
      s.1.vec <+: s'.1.vec ∧
      ((Arr.reserve m (s.1.vec.length * n.toNat) s.2).2 = true → s.1.vec.length < s'.1.vec.length) :=
  Arr.imul_refused s n hn hv hfit hl

/-- `[1, 2] *= 2` on a machine with 32 bytes: [1, 2, 1, 2] and RuntimeError. -/
example : ∃ h r, Arr.step ⟨.ge313, false, false, false, false⟩ host0 (fun _ b => decide (b ≤ 32)) 9
    (⟨[1, 2], heap9⟩, ⟨2, 0⟩) (.imul 2) 0 = .exc (⟨[1, 2, 1, 2], h⟩, r) .runtimeError := ⟨_, _, rfl⟩

/-- `l *= n` on an ObjectLinkedList: when the machine grants one node and refuses the next, the call raises and the list has
one element more than before. -/
theorem C60_imul_linked_negation (H : OHost) (strict : Bool) (m : Lnk.Machine) (s : Lnk.St) (n : Int) (x y : Obj)
    (xs : List Obj) (hv : ObjLinked.vec s.1 = x :: y :: xs) (hn : 2 ≤ n) (h1 : m s.2 = true) (h2 : m (s.2 + 1) = false)
    (hl : s.1.heap.imm x = true ∨ 0 < s.1.heap.rc x) :
    ∃ s', Lnk.step H strict m s (.imul n) = .exc s' .runtimeError ∧ ObjLinked.vec s'.1 = x :: y :: xs ++ [x] := by
  obtain ⟨h', e, _⟩ := Heap.incref_ok hl
  obtain ⟨k, hk⟩ : ∃ k, n.toNat - 1 = k + 1 := ⟨n.toNat - 2, by omega⟩
  have hs : s.1.list.size = xs.length + 2 := by
    have := congrArg List.length hv
    simpa [ObjLinked.vec, LState.vals, LState.size] using this
  refine ⟨(⟨s.1.list.push x, h'⟩, s.2 + 2), ?_, ?_⟩
  · show Lnk.imul m s n = _
    unfold Lnk.imul
    dsimp only
    rw [if_neg (by omega), if_neg (by omega), hk, Lnk.imulOuter, hs, Lnk.imulInner, hv]
    simp only [List.getElem?_cons_zero, Lnk.node, h1, e]
    rw [Lnk.imulInner, Lnk.vec_push _ _ _ s.1.heap]
    have : ObjLinked.vec ⟨s.1.list, s.1.heap⟩ = x :: y :: xs := hv
    rw [this]
    simp [Lnk.node, h2]
  · rw [Lnk.vec_push _ _ _ s.1.heap]
    have : ObjLinked.vec ⟨s.1.list, s.1.heap⟩ = x :: y :: xs := hv
    rw [this]

private theorem adjust_zero (n : Nat) : adjustIndices n 0 0 1 = (0, 0, 0) := by
  have h0 : ¬ (0 : Int) < 0 := by omega
  have h1 : ¬ (1 : Int) < 0 := by omega
  simp only [adjustIndices, h0, h1, if_false]
  by_cases h : n = 0
  · subst h; rfl
  · rw [if_neg (by omega)]; rfl

private theorem adjust_first (n : Nat) : adjustIndices (n + 1 : Nat) 0 1 1 = (0, 1, 1) := by
  have h0 : ¬ (0 : Int) < 0 := by omega
  have h1 : ¬ (1 : Int) < 0 := by omega
  have h2 : ¬ (0 : Int) ≥ ((n + 1 : Nat) : Int) := by omega
  simp only [adjustIndices, h0, h1, h2, if_false]
  by_cases h : n = 0
  · subst h; rfl
  · rw [if_neg (by omega)]; rfl

/-- `l[0:0] = (o,)` refused on an ObjectArrayList: the list is unchanged, but `o` has one reference more, which nobody
holds. -/
theorem C60_slice_leak_negation (cfg : Cfg) (H : OHost) (m : Arr.Machine) (fuel : Nat) (s : Arr.St) (o : Obj) (hint : Nat)
    (hfull : s.2.cap ≤ s.1.vec.length) (hrefuse : ∀ t n, m t n = false) :
    ∃ h', shown (Arr.step cfg H m fuel s (.setSlice ⟨some (.int 0), some (.int 0), none⟩ (.tuple [o])) hint) =
      .exc ⟨s.1.vec, h'⟩ .runtimeError ∧ Leaked [o] s.1.heap h' := by
  have hr : (Arr.makeRoom m 1 s.1.vec.length s.2).2 = false := by
    unfold Arr.makeRoom
    rw [if_neg (by omega)]
    split
    · rfl
    · unfold Arr.getBlock; rw [hrefuse]; rfl
  refine ⟨s.1.heap.gain o, ?_, leaked_of_adj (Heap.gain_adj _ _) (fun _ _ => rfl)⟩
  show shown (Arr.setSlice m s ⟨some (.int 0), some (.int 0), none⟩ (.tuple [o])) = _
  unfold Arr.setSlice
  rw [show sliceUnpack ⟨some (.int 0), some (.int 0), none⟩ = .ok (0, 0, 1) from rfl]
  dsimp only
  rw [adjust_zero]
  rw [if_neg (by simp [OSrc.isSequence]), if_neg (by simp), if_pos (by simp [OSrc.size])]
  simp only [OSrc.size]
  unfold Arr.growSlice ObjArray.copyIn
  simp only [ObjArray.fast, Int.toNat_zero, ObjArray.genericCopy, Bool.false_eq_true, if_false]
  simp only [List.length_cons, List.length_nil]
  rw [show ((0 + 1 : Nat) - 0 : Int).toNat = 0 + 1 from rfl, Arr.insertNew]
  dsimp only [OSrc.elems]
  rw [List.getElem?_cons_zero]
  dsimp only
  rw [if_pos (by omega), List.length_map]
  rcases e : Arr.makeRoom m 1 s.1.vec.length s.2 with ⟨r', b⟩
  rw [e] at hr
  dsimp only at hr
  subst hr
  dsimp only
  unfold Arr.caught
  have hm : (s.1.vec.map some).mapM id = some s.1.vec := by
    generalize s.1.vec = l
    induction l with
    | nil => rfl
    | cons a l ih => simp [ih]
  rw [hm]
  rfl

/-- `l[0:1] = (a, b)` refused on a full ObjectArrayList: RuntimeError, and the first element is `a` now. -/
theorem C60_slice_array_negation (cfg : Cfg) (H : OHost) (m : Arr.Machine) (fuel : Nat) (s : Arr.St) (x a b : Obj)
    (xs : List Obj) (hint : Nat) (hv : s.1.vec = x :: xs) (hl : s.1.heap.imm x = true ∨ 0 < s.1.heap.rc x)
    (hfull : s.2.cap ≤ s.1.vec.length) (hrefuse : ∀ t n, m t n = false) :
    ∃ h', shown (Arr.step cfg H m fuel s (.setSlice ⟨some (.int 0), some (.int 1), none⟩ (.tuple [a, b])) hint) =
      .exc ⟨a :: xs, h'⟩ .runtimeError := by
  obtain ⟨⟨v, h⟩, r⟩ := s
  dsimp only at hv hl hfull
  subst hv
  have hr : (Arr.makeRoom m 1 (x :: xs).length r).2 = false := by
    unfold Arr.makeRoom
    rw [if_neg (by omega)]
    split
    · rfl
    · unfold Arr.getBlock; rw [hrefuse]; rfl
  obtain ⟨h1, e1, _⟩ := Heap.decref_ok (h := h.gain a) (o := x) (by
    have a1 := Heap.gain_adj h a
    by_cases hi : h.imm x = true
    · left; rw [a1.1]; exact hi
    · right
      have := a1.2 x (by simpa using hi)
      dsimp only at this
      rcases hl with hl | hl
      · exact absurd hl hi
      · omega)
  refine ⟨h1.gain b, ?_⟩
  show shown (Arr.setSlice m _ ⟨some (.int 0), some (.int 1), none⟩ (.tuple [a, b])) = _
  unfold Arr.setSlice
  rw [show sliceUnpack ⟨some (.int 0), some (.int 1), none⟩ = .ok (0, 1, 1) from rfl]
  dsimp only
  rw [show ((x :: xs).length : Int) = ((xs.length + 1 : Nat) : Int) from rfl, adjust_first]
  rw [if_neg (by simp [OSrc.isSequence]), if_neg (by simp), if_pos (by simp [OSrc.size])]
  simp only [OSrc.size]
  unfold Arr.growSlice ObjArray.copyIn
  simp only [ObjArray.fast, Int.toNat_zero, Int.toNat_one, Bool.false_eq_true, if_false]
  rw [ObjArray.genericCopy]
  simp only [OSrc.elems, List.getElem?_cons_zero, List.map_cons, Nat.add_zero, e1, ObjArray.genericCopy,
    List.set_cons_zero]
  simp only [List.length_cons, List.length_nil]
  rw [show ((0 + 1 + 1 : Nat) - 1 : Int).toNat = 0 + 1 from rfl, Arr.insertNew]
  dsimp only [OSrc.elems]
  rw [List.getElem?_cons_succ, List.getElem?_cons_zero]
  dsimp only
  rw [if_pos (by simp)]
  rw [show ((some a :: xs.map some).length) = (x :: xs).length by simp]
  rcases e : Arr.makeRoom m 1 (x :: xs).length r with ⟨r', c⟩
  rw [e] at hr
  dsimp only at hr
  subst hr
  dsimp only
  unfold Arr.caught
  have hm : (some a :: xs.map some).mapM id = some (a :: xs) := by
    have : ∀ l : List Obj, (l.map some).mapM id = some l := by
      intro l
      induction l with
      | nil => rfl
      | cons a l ih => simp [ih]
    exact this (a :: xs)
  rw [hm]
  rfl

/-- `l[0:0] = (a, b)` on an ObjectLinkedList when the second node is refused: RuntimeError, and `a` has been inserted. -/
theorem C60_slice_linked_negation (H : OHost) (strict : Bool) (m : Lnk.Machine) (s : Lnk.St) (a b : Obj)
    (h1 : m s.2 = true) (h2 : m (s.2 + 1) = false) :
    ∃ s', Lnk.step H strict m s (.setSlice ⟨some (.int 0), some (.int 0), none⟩ (.tuple [a, b])) =
      .exc s' .runtimeError ∧ ObjLinked.vec s'.1 = a :: ObjLinked.vec s.1 ∧ s'.1.heap = s.1.heap.gain a := by
  refine ⟨(⟨s.1.list.insert 0 a, s.1.heap.gain a⟩, s.2 + 2), ?_, ?_, rfl⟩
  · show Lnk.setSlice m s ⟨some (.int 0), some (.int 0), none⟩ (.tuple [a, b]) = _
    unfold Lnk.setSlice
    rw [show sliceUnpack ⟨some (.int 0), some (.int 0), none⟩ = .ok (0, 0, 1) from rfl]
    dsimp only
    rw [adjust_zero]
    rw [if_neg (by simp [OSrc.isSequence]), if_neg (by simp only [OSrc.size, List.length_cons]; omega),
      if_pos (by simp only [OSrc.size, List.length_cons]; omega)]
    simp only [OSrc.size]
    unfold Lnk.growSlice
    rw [if_neg (by omega)]
    have hp : listAt s.1.list.size (0 : Int).toNat = .ok 0 := by
      unfold listAt
      rw [Int.toNat_zero]
      split
      · congr 1; omega
      · rw [if_neg (by omega)]; rfl
    rw [hp]
    dsimp only
    simp only [List.length_cons, List.length_nil, Int.toNat_zero]
    rw [show ((0 + 1 + 1 : Nat) - 0 : Int).toNat = 0 + 1 + 1 from rfl, Lnk.growLoop]
    simp only [OSrc.elems, List.getElem?_cons_zero, Nat.zero_le, if_true, Lnk.node, h1]
    rw [Lnk.growLoop]
    simp only [OSrc.elems, List.getElem?_cons_succ, List.getElem?_cons_zero, Lnk.node, h2]
    rw [if_pos (by simp [LState.insert, LState.size])]
    rw [Heap.gain_undo]
  · simp [ObjLinked.vec, LState.vals, LState.insert]

/-- ObjectArrayList(list) when the machine refuses the storage: RuntimeError, and after the half-built object is destroyed
every item has one reference more for each of its occurrences. -/
theorem C60_create_array_negation (m : Arr.Machine) (h : Heap) (t : Nat) (xs : List Obj) (hx : xs ≠ [])
    (hl : ∀ o ∈ xs, h.imm o = true ∨ 0 < h.rc o) (hrefuse : m t (xs.length * 8) = false) :
    ∃ s' h', Arr.init m h t (.list xs) 0 = .exc s' .runtimeError ∧ ObjArray.dealloc s'.1 = .ok h' ∧ Leaked xs h h' := by
  obtain ⟨h1, e, a⟩ := Heap.increfs_ok hl
  have hlen : 0 < xs.length := List.length_pos_iff.2 hx
  have hr : (Arr.makeRoom m xs.length 0 ⟨0, t⟩).2 = false := by
    unfold Arr.makeRoom
    dsimp only
    rw [if_neg (by omega)]
    split
    · rfl
    · rename_i hm
      unfold Arr.getBlock
      dsimp only
      rw [show min (0 + max 0 xs.length) Arr.maxSize = xs.length by omega, hrefuse]; rfl
  rcases e1 : Arr.makeRoom m xs.length 0 ⟨0, t⟩ with ⟨r', b⟩
  rw [e1] at hr
  dsimp only at hr
  subst hr
  refine ⟨(⟨[], h1⟩, r'), h1, ?_, rfl, leaked_of_adj a (fun _ _ => rfl)⟩
  unfold Arr.init
  rw [if_neg (by omega)]
  dsimp only
  rw [e]
  dsimp only
  rw [e1]

/-- A constructor that fails over an iterator leaks exactly the reference to the item for which there was no room. -/
theorem C60_create_array_iter_negation (m : Arr.Machine) (h : Heap) (t : Nat) (xs : List Obj) (s' : Arr.St) (e : Exc)
    (hf : Arr.init m h t (.seq xs) 0 = .exc s' e) :
    e = .runtimeError ∧ ∃ pre o post h', xs = pre ++ o :: post ∧ s'.1.vec = pre ∧ ObjArray.dealloc s'.1 = .ok h' ∧
      Leaked [o] h h' := by
  unfold Arr.init at hf
  rw [if_neg (by omega)] at hf
  dsimp only at hf
  rcases e1 : Arr.initPush m xs (⟨[], h⟩, ⟨0, t⟩) with ⟨s1, b⟩
  rw [e1] at hf
  cases b
  · dsimp only at hf
    injection hf with hs he
    subst hs
    obtain ⟨pre, o, post, h1, h2, h3⟩ := Arr.initPush_leak (h := h) xs _ _ ((Heap.Adj.refl h).congr (by simp)) e1
    obtain ⟨h', h4, h5⟩ := release (lost := [o]) h3 (fun _ => rfl)
    exact ⟨he.symm, pre, o, post, h', h1, by simpa using h2, h4, h5⟩
  · cases hf

/-- The constructor of ObjectLinkedList leaks that reference over an iterator as well as over a list or tuple. -/
theorem C60_create_linked_negation (m : Lnk.Machine) (h : Heap) (t : Nat) (xs : List Obj) (src : OSrc)
    (hsrc : src = .seq xs ∨ src = .list xs ∨ src = .tuple xs) (s' : Lnk.St) (e : Exc)
    (hf : Lnk.init m h t src = .exc s' e) :
    e = .runtimeError ∧ ∃ pre o post h', xs = pre ++ o :: post ∧ ObjLinked.vec s'.1 = pre ∧
      ObjLinked.dealloc s'.1 = .ok h' ∧ Leaked [o] h h' := by
  have hlist : ∀ s1, Lnk.initCounted m xs (⟨⟨[], 0, 0⟩, h⟩, t) = .ok (s1, false) → s1 = s' → e = .runtimeError →
      e = .runtimeError ∧ ∃ pre o post h', xs = pre ++ o :: post ∧ ObjLinked.vec s'.1 = pre ∧
      ObjLinked.dealloc s'.1 = .ok h' ∧ Leaked [o] h h' := by
    rintro s1 e1 rfl he
    obtain ⟨pre, o, post, h1, h2, h3⟩ := Lnk.initCounted_leak (h := h) xs _ _
      ((Heap.Adj.refl h).congr (by simp [ObjLinked.vec, LState.vals])) e1
    obtain ⟨h', h4, h5⟩ := release (lost := [o]) h3 (fun _ => rfl)
    exact ⟨he, pre, o, post, h', h1, by simpa [ObjLinked.vec, LState.vals] using h2, h4, h5⟩
  rcases hsrc with rfl | rfl | rfl
  · unfold Lnk.init at hf
    dsimp only at hf
    rcases e1 : Lnk.initPush m xs (⟨⟨[], 0, 0⟩, h⟩, t) with ⟨s1, b⟩
    rw [e1] at hf
    cases b
    · dsimp only at hf
      injection hf with hs he
      subst hs
      obtain ⟨pre, o, post, h1, h2, h3⟩ := Lnk.initPush_leak (h := h) xs _ _
        ((Heap.Adj.refl h).congr (by simp [ObjLinked.vec, LState.vals])) e1
      obtain ⟨h', h4, h5⟩ := release (lost := [o]) h3 (fun _ => rfl)
      exact ⟨he.symm, pre, o, post, h', h1, by simpa [ObjLinked.vec, LState.vals] using h2, h4, h5⟩
    · cases hf
  · unfold Lnk.init at hf
    dsimp only at hf
    split at hf
    · cases hf
    · cases hf
    · rename_i s1 e1
      injection hf with hs he
      exact hlist s1 e1 hs he.symm
  · unfold Lnk.init at hf
    dsimp only at hf
    split at hf
    · cases hf
    · cases hf
    · rename_i s1 e1
      injection hf with hs he
      exact hlist s1 e1 hs he.symm

/-- The third node refused: the third item is leaked. -/
example : ∃ s', Lnk.init (fun t => t != 2) heap9 0 (.list [1, 2, 3, 4]) = .exc s' .runtimeError ∧
    ObjLinked.vec s'.1 = [1, 2] := ⟨_, rfl, rfl⟩
example : ∃ s', Arr.init (fun t _ => t != 2) heap9 0 (.seq [1, 2, 3, 4]) 0 = .exc s' .runtimeError ∧ s'.1.vec = [1, 2] :=
  ⟨_, rfl, rfl⟩

end Verif.Props
