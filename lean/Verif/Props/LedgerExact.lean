import Verif.Lemmas.LedgerExact
import Verif.Props.Ledger

/-!
# C61 for IntLinkedList: how many references every call loses
-/

namespace Verif.Props

open Verif.Ledger

/-- Every call of IntLinkedList that returns or raises: the counts are what they were, plus the references given to the caller,
plus as many as `lost` says that nobody owns. -/
theorem C61_linked_exact (cfg : Cfg) (strict : Bool) (w : World) (s s' : LinkedList.S) (m m' : Mem) (c : Call) (h : m.WF)
    (hr : Ready w m c) (hf : c.Stored s.vals) (he : (Lnk.step cfg strict w s m c).state? = some (s', m')) :
    ∃ leak : List Obj, leak.length = lost cfg s.vals c (result? (Lnk.step cfg strict w s m c)) ∧
      (∀ o ∈ leak, o < m'.next) ∧
      Ledger.Balanced m.heap.imm m.heap.rc m'.heap.rc (given w.self (Lnk.step cfg strict w s m c) ++ leak) := by
  obtain ⟨leak, a, b⟩ := Lnk.step_lost cfg strict s h hr.ints hr.self hr.live hr.known hf
  have g := a s' m' he
  refine ⟨leak, ?_, fun o ho => g.lt o (by simp [ho]), g.balanced⟩
  rw [b (by rw [he]; rfl)]
  congr 1
  cases Lnk.step cfg strict w s m c <;> rfl

/-- `[5, 6] < [5, 7]` looks at both elements; `l[0:1] = [1, 2, 3]` fetches three; `l + (1,)` raises and loses two. -/
example : Ready LedgerEx.world LedgerEx.mem (.cmp .lt (.same [5, 7])) ∧
    (Call.cmp .lt (.same [5, 7])).Stored [5, 6] ∧
    lost LedgerEx.cfg [5, 6] (.cmp .lt (.same [5, 7])) (some (.bool true)) = 2 ∧
    lost LedgerEx.cfg [5, 6] (.cmp .lt (.same [4, 7])) (some (.bool false)) = 1 ∧
    lost LedgerEx.cfg [5, 6] (.setSlice ⟨some (.int 0), some (.int 1), none⟩ (.same [1, 2, 3])) (some .none) = 3 ∧
    lost LedgerEx.cfg [5, 6] (.add (.items .tuple 1 none [⟨some 1, .int 1⟩])) none = 2 :=
  ⟨⟨fun p o h => (by cases h), by decide, rfl, trivial⟩, by
    intro v hv x hx
    cases hv
    simp only [List.mem_cons, List.not_mem_nil, or_false] at hx
    rcases hx with rfl | rfl <;> decide, rfl, rfl, rfl, rfl⟩

/-- C61 over histories of IntLinkedList: whatever the calls are, and however the caller takes and releases references between them,
the counts are what the caller's own doings make them, plus exactly as many references as `lost` gives for the calls one by
one. The list of them is in `leak`: nobody owns them. -/
theorem C61_linked_history (cfg : Cfg) (strict : Bool) (self : Obj) (s s' : LinkedList.S) (m m' : Mem) (got gone : List Obj)
    (n : Nat) (h : m.WF) (hh : LostHist (Lnk.step cfg strict) LState.vals cfg self s m got gone n s' m') :
    ∃ leak : List Obj, leak.length = n ∧ (∀ o ∈ leak, o < m'.next) ∧
      ∀ o, m.heap.imm o = false → m'.heap.rc o + gone.count o = m.heap.rc o + got.count o + leak.count o := by
  obtain ⟨_, _, _, leak, a, b, c⟩ := Lnk.lostHist_ok cfg strict hh h
  exact ⟨leak, a, b, c⟩

/-- A caller that has released all it got leaves no trace exactly if the calls lost no reference to an object that is not
immortal. -/
theorem C61_linked_no_trace_exact (cfg : Cfg) (strict : Bool) (self : Obj) (s s' : LinkedList.S) (m m' : Mem)
    (got gone : List Obj) (n : Nat) (h : m.WF) (hp : gone.Perm got)
    (hh : LostHist (Lnk.step cfg strict) LState.vals cfg self s m got gone n s' m') :
    ∃ leak : List Obj, leak.length = n ∧
      ((∀ o, m.heap.imm o = false → m'.heap.rc o = m.heap.rc o) ↔ ∀ o ∈ leak, m.heap.imm o = true) := by
  obtain ⟨leak, a, _, c⟩ := C61_linked_history cfg strict self s s' m m' got gone n h hh
  refine ⟨leak, a, fun hc o ho => ?_, fun hi o ho => ?_⟩
  · cases e : m.heap.imm o
    · have h1 := c o e
      have h2 := hc o e
      have h3 := List.count_pos_iff.2 ho
      rw [hp.count_eq] at h1
      omega
    · rfl
  · have h1 := c o ho
    have h3 : leak.count o = 0 := List.count_eq_zero.2 fun hm => by rw [hi o hm] at ho; cases ho
    rw [hp.count_eq] at h1
    omega

/-- `l[0]`, released by the caller, then `pop()`, released too: one reference is lost. -/
example : ∃ m' s', LostHist (Lnk.step LedgerEx.cfg true) LState.vals LedgerEx.cfg 0 ⟨[(0, 5)], 1, 0⟩ LedgerEx.mem [10] [10] 1 s' m' := by
  refine ⟨_, _, LostHist.call (w := LedgerEx.world) (c := .plain (.get (.idx (.int 0)))) rfl (LedgerEx.ready_bare trivial) trivial rfl
    (LostHist.release (m' := _) rfl .nil)⟩

/-- Ten comparisons with itself of a list of a thousand elements lose ten thousand references. In general, with CPython 3.11 or
elements that are not negative: comparing a list with itself loses one for each element, every time. -/
theorem C61_linked_self_compare (cfg : Cfg) (strict : Bool) (w : World) (s : LinkedList.S) (m : Mem) (op : CmpOp) (h : m.WF)
    (hr : Ready w m (.cmp op .self)) (hf : ∀ x ∈ s.vals, FitsS 32 x) (hp : cfg.py = .le311 ∨ ∀ x ∈ s.vals, 0 ≤ x) :
    ∃ m' v leak, Lnk.step cfg strict w s m (.cmp op .self) = .ok (s, m') v ∧ leak.length = s.size ∧
      Ledger.Balanced m.heap.imm m.heap.rc m'.heap.rc leak := by
  obtain ⟨b, m', leak, e, g, l⟩ := Lnk.compare_lost cfg op s (src := .self) (v := s.vals) h hr.ints rfl hf
  refine ⟨m', .bool b, leak, e, ?_, g.balanced⟩
  rw [l, if_pos rfl]
  have hs : ∀ x ∈ s.vals, LinkedList.seen cfg x = x := fun x hx => by
    unfold LinkedList.seen
    refine if_pos ?_
    rcases hp with hp | hp
    · exact .inr (.inl hp)
    · exact .inr (.inr (.inl (hp x hx)))
  rw [List.map_congr_left hs, List.map_id', ← LState.length_vals]
  generalize s.vals = xs
  induction xs with
  | nil => rfl
  | cons x xs ih => simp only [looked, if_pos, ih, List.length_cons]

example : Ready LedgerEx.world LedgerEx.mem (.cmp .eq .self) ∧ (∀ x ∈ [5, 6], FitsS 32 x) ∧ ∀ x ∈ [(5 : Int), 6], 0 ≤ x :=
  ⟨⟨fun p o h => (by cases h), by decide, rfl, trivial⟩, by decide, by decide⟩

end Verif.Props
