import Verif.Lemmas.Ledger

/-!
# C61: references of the int lists

After a call, the count of every object is what it was before plus the references the caller has received.
-/

namespace Verif.Props

open Verif.Ledger

namespace LedgerEx

/-- Ten objects with one reference each, object 3 immortal. -/
def mem : Mem := ⟨⟨fun o => o == 3, fun o => if o < 10 then 1 else 0⟩, 10⟩

def world : World := ⟨0, fun _ => none⟩

def cfg : Cfg := ⟨.ge313, false, false, false, false⟩

theorem wf : mem.WF := fun o h => by
  have h : 10 ≤ o := h
  refine ⟨if_neg (Nat.not_lt.2 h), ?_⟩
  show (o == 3) = false
  rw [beq_eq_false_iff_ne]
  intro e
  rw [e] at h
  exact absurd h (by decide)

/-- Operand: a Python list with objects 1, 3 and 1 again. -/
def operand : Operand := .items .list 2 none [⟨some 1, .int 7⟩, ⟨some 3, .int 8⟩, ⟨some 1, .int 7⟩]

theorem ready_iadd : Ready world mem (.iadd operand) where
  ints := fun p o h => by cases h
  self := by decide
  live := rfl
  known := ⟨by decide, nofun, by simp [mem], by simp⟩

theorem ready_add : Ready world mem (.add operand) where
  ints := fun p o h => by cases h
  self := by decide
  live := rfl
  known := ⟨by decide, nofun, by simp [mem], by simp⟩

theorem ready_bare {op : Op} (h : Bare op) : Ready world mem (.plain op) where
  ints := fun p o h => by cases h
  self := by decide
  live := rfl
  known := h

end LedgerEx

/-! ## Array lists -/

/-- Every call of IntArrayList and BigIntArrayList, in every memory, with every operand and however it ends: it does what
it does without identities (`Agrees`; in particular references cause no undefined behaviour), and afterwards the count of
every object is what it was plus the references given to the caller. Objects made on the way and not returned are gone. -/
theorem C61_array_calls (cfg : Cfg) (K : Kind) (w : World) (l : List Int) (m : Mem) (c : Call) (h : m.WF) (hr : Ready w m c) :
    Ledger.Agrees (Arr.step cfg K w l m c) (ArrayList.step cfg K l c.toOp) ∧
      ∀ l' m', (Arr.step cfg K w l m c).state? = some (l', m') →
        m'.WF ∧ Ledger.Balanced m.heap.imm m.heap.rc m'.heap.rc (given w.self (Arr.step cfg K w l m c)) := by
  obtain ⟨a, b⟩ := Arr.step_ok cfg K l h hr.ints hr.self hr.live hr.known
  refine ⟨a, fun l' m' e => ?_⟩
  have g := b l' m' e
  rw [List.append_nil] at g
  exact ⟨g.wf h, g.balanced⟩

/-- `l += [a, n, a]`: the caller receives the list; and `l + [a, n, a]`: a new list with five elements, of which two are new. -/
example : LedgerEx.mem.WF ∧ Ready LedgerEx.world LedgerEx.mem (.iadd LedgerEx.operand) ∧
    given 0 (Arr.step LedgerEx.cfg .i32 LedgerEx.world [5] LedgerEx.mem (.iadd LedgerEx.operand)) = [0] ∧
    Ready LedgerEx.world LedgerEx.mem (.add LedgerEx.operand) ∧
    given 0 (Arr.step LedgerEx.cfg .i32 LedgerEx.world [5, 6] LedgerEx.mem (.add LedgerEx.operand)) = [13, 11, 12, 1, 3, 1] :=
  ⟨LedgerEx.wf, LedgerEx.ready_iadd, rfl, LedgerEx.ready_add, rfl⟩

/-- Histories of any length, in which the caller also releases references, takes new ones and makes objects of its own: the
counts are those at the beginning, plus what the caller has got, minus what it has released. -/
theorem C61_array_history (cfg : Cfg) (K : Kind) (self : Obj) (l l' : List Int) (m m' : Mem) (got gone : List Obj) (h : m.WF)
    (hh : Hist (Arr.step cfg K) (fun _ => True) self l m got gone l' m') :
    ∀ o, m.heap.imm o = false → m'.heap.rc o + gone.count o = m.heap.rc o + got.count o :=
  (hist_ok (fun _ l _ _ h hr _ => (Arr.step_ok cfg K l h hr.ints hr.self hr.live hr.known).2) hh h).2.2

/-- A caller that has released all it got leaves no trace: every object has its old count, and no object made since is
alive. -/
theorem C61_array_no_trace (cfg : Cfg) (K : Kind) (self : Obj) (l l' : List Int) (m m' : Mem) (got gone : List Obj) (h : m.WF)
    (hh : Hist (Arr.step cfg K) (fun _ => True) self l m got gone l' m') (hp : gone.Perm got) :
    (∀ o, m.heap.imm o = false → m'.heap.rc o = m.heap.rc o) ∧ ∀ o, m.next ≤ o → m'.heap.live o = false := by
  obtain ⟨_, hi, hb⟩ := hist_ok (fun _ l _ _ h hr _ => (Arr.step_ok cfg K l h hr.ints hr.self hr.live hr.known).2) hh h
  have hc : ∀ o, m.heap.imm o = false → m'.heap.rc o = m.heap.rc o := fun o ho => by
    have := hb o ho
    rw [hp.count_eq] at this
    omega
  refine ⟨hc, fun o ho => ?_⟩
  obtain ⟨h1, h2⟩ := h o ho
  unfold Heap.live
  rw [hi, h2, hc o h2, h1]
  rfl

/-- `l[0]`, and the caller drops the int. -/
example : ∃ m' l', Hist (Arr.step LedgerEx.cfg .i32) (fun _ => True) 0 [5, 6] LedgerEx.mem [10] [10] l' m' := by
  refine ⟨_, _, Hist.call (w := LedgerEx.world) (c := .plain (.get (.idx (.int 0)))) rfl (LedgerEx.ready_bare trivial) trivial rfl
    (Hist.release (m' := _) rfl .nil)⟩

/-! ## Construction, sorting with a key, iterators -/

/-- The constructor (of all three int lists) with an iterable: it does what it does without identities, and all counts are as
before, whether it succeeds or raises. -/
theorem C61_init (K : Kind) (m : Mem) (src : Operand) (h : m.WF) (hk : src.Known m.next) :
    (init K m src).mapState Prod.fst = ArrayList.init K (some (.inr src.plain)) ∧
      ∀ l m', (init K m src).state? = some (l, m') → m'.WF ∧ Ledger.Balanced m.heap.imm m.heap.rc m'.heap.rc [] := by
  obtain ⟨a, b⟩ := init_ok K h hk
  exact ⟨a, fun l m' e => ⟨(b l m' e).wf h, (b l m' e).balanced⟩⟩

example : LedgerEx.operand.Known LedgerEx.mem.next ∧
    ((init .i32 LedgerEx.mem LedgerEx.operand).state?).map Prod.fst = some [7, 8, 7] := ⟨LedgerEx.ready_add.known, rfl⟩

/-- `sort` with a key, for every key function (`keys` are its answers, in the order of the elements) and every rearrangement:
ints and keys made on the way are gone, and all counts are as before. A key function that raises stops it. -/
theorem C61_sort_key (w : World) (m : Mem) (ps : List PyLong) (keys : List (Except Exc (Option Obj)))
    (order : List Obj → List Obj) (h : m.WF) (hw : w.Ready m.next) (hk : ∀ o, .ok (some o) ∈ keys → o < m.next)
    (ho : ∀ l, (order l).Perm l) :
    ∃ m', sortKeyed w m ps keys order = .ok (m', firstError keys) ∧ m'.WF ∧ Ledger.Balanced m.heap.imm m.heap.rc m'.heap.rc [] := by
  obtain ⟨m', e, g⟩ := sortKeyed_ok h hw ps hk ho
  exact ⟨m', e, g.wf h, g.balanced⟩

example : LedgerEx.world.Ready LedgerEx.mem.next ∧
    (∀ o, Except.ok (some o) ∈ [Except.ok (some 1), .ok none, (.error .valueError : Except Exc (Option Obj))] →
      o < LedgerEx.mem.next) ∧ ∀ l : List Obj, l.reverse.Perm l :=
  ⟨(fun p o h => by cases h), by simp [LedgerEx.mem], List.reverse_perm⟩

/-- An iterator takes one reference to the list and gives it back: whatever the caller receives while it exists (`gs`, for
instance the ints of `next`), when the iterator goes, the counts are those before its creation plus `gs`. -/
theorem C61_iterator (w : World) (m m2 : Mem) (gs : List Obj) (h : m.WF) (hs : w.self < m.next)
    (hl : m.heap.live w.self = true) :
    ∃ m1 i, iterNew w m = .ok (m1, i) ∧ Ledger.Balanced m.heap.imm m.heap.rc m1.heap.rc [i, w.self] ∧
      (m2.heap.imm = m1.heap.imm → m1.next ≤ m2.next → Ledger.Balanced m1.heap.imm m1.heap.rc m2.heap.rc gs →
        (∀ g ∈ gs, g < m2.next) → i ∉ gs →
        ∃ m3, iterDrop w m2 i = .ok m3 ∧ Ledger.Balanced m.heap.imm m.heap.rc m3.heap.rc gs) := by
  obtain ⟨m1, e1, g1⟩ := iterNew_ok h hs hl
  refine ⟨m1, m.next, e1, g1.balanced, fun hi hle hb hlt hn => ?_⟩
  have g2 : Grow m1 m2 gs := ⟨hi, hle, hb, hlt⟩
  obtain ⟨m3, e3, g3⟩ := iterDrop_ok (gs := gs) h ((g1.trans g2).perm (List.perm_append_comm (l₂ := [_, _]))) hs hn
  exact ⟨m3, e3, g3.balanced⟩

/-- `next` gives one reference. -/
theorem C61_iterator_next (K : Kind) (cfg : Cfg) (w : World) (m : Mem) (v : Int) (h : m.WF) (hw : w.Ready m.next) :
    (iterNext K cfg w m v).1.WF ∧
      Ledger.Balanced m.heap.imm m.heap.rc (iterNext K cfg w m v).1.heap.rc [(iterNext K cfg w m v).2] := by
  have g := boxFor_grow false h hw (box K cfg.py v)
  exact ⟨g.wf h, g.balanced⟩

/-- Ten objects, an iterator, one `next`. -/
example : ∃ m1, iterNew LedgerEx.world LedgerEx.mem = .ok (m1, 10) ∧
    (iterNext .i32 LedgerEx.cfg LedgerEx.world m1 5).2 = 11 := ⟨_, rfl, rfl⟩

/-! ## IntLinkedList -/

/-- Every call of IntLinkedList that is not `Leaky` — indexing, `to_list`, `+`, and comparisons and slice assignments with an
IntLinkedList as operand. For all calls the claim is false: `C61_linked_negation`. -/
theorem C61_linked_calls_partial (cfg : Cfg) (strict : Bool) (w : World) (s : LinkedList.S) (m : Mem) (c : Call) (h : m.WF)
    (hr : Ready w m c) :
    Ledger.Agrees (Lnk.step cfg strict w s m c) (LinkedList.step cfg strict s c.toOp) ∧
      ∀ s' m', (Lnk.step cfg strict w s m c).state? = some (s', m') → m'.WF ∧
        (¬ Leaky c → Ledger.Balanced m.heap.imm m.heap.rc m'.heap.rc (given w.self (Lnk.step cfg strict w s m c))) ∧
        ∃ leak, Ledger.Balanced m.heap.imm m.heap.rc m'.heap.rc (given w.self (Lnk.step cfg strict w s m c) ++ leak) := by
  obtain ⟨a, leak, b, c⟩ := Lnk.step_ok cfg strict s h hr.ints hr.self hr.live hr.known
  refine ⟨a, fun s' m' e => ?_⟩
  have g := b s' m' e
  refine ⟨g.wf h, fun hn => ?_, leak, g.balanced⟩
  rw [c hn, List.append_nil] at g
  exact g.balanced

example : Ready LedgerEx.world LedgerEx.mem (.iadd LedgerEx.operand) ∧ ¬ Leaky (.iadd LedgerEx.operand) ∧
    given 0 (Lnk.step LedgerEx.cfg true LedgerEx.world ⟨[], 0, 0⟩ LedgerEx.mem (.iadd LedgerEx.operand)) = [0] :=
  ⟨LedgerEx.ready_iadd, id, rfl⟩

/-- Histories without leaky calls. -/
theorem C61_linked_history_partial (cfg : Cfg) (strict : Bool) (self : Obj) (s s' : LinkedList.S) (m m' : Mem)
    (got gone : List Obj) (h : m.WF) (hh : Hist (Lnk.step cfg strict) (fun c => ¬ Leaky c) self s m got gone s' m') :
    ∀ o, m.heap.imm o = false → m'.heap.rc o + gone.count o = m.heap.rc o + got.count o := by
  refine (hist_ok (fun w s m c h hr hok => ?_) hh h).2.2
  obtain ⟨_, leak, b, c⟩ := Lnk.step_ok cfg strict s h hr.ints hr.self hr.live hr.known
  rw [c hok] at b
  exact b

example : ∃ m' s', Hist (Lnk.step LedgerEx.cfg true) (fun c => ¬ Leaky c) 0 ⟨[(0, 5)], 1, 0⟩ LedgerEx.mem [10] [10] s' m' := by
  refine ⟨_, _, Hist.call (w := LedgerEx.world) (c := .plain (.pop none)) rfl (LedgerEx.ready_bare trivial) id rfl
    (Hist.release (m' := _) rfl .nil)⟩

/-- `l[i]` of an IntLinkedList: the int comes with two references, of which the caller receives one. -/
theorem C61_linked_getitem_leaks (cfg : Cfg) (strict : Bool) (w : World) (s s' : LinkedList.S) (m : Mem) (k : Key) (p : PyLong)
    (h : m.WF) (hw : w.Ready m.next) (hg : LinkedList.step cfg strict s (.get k) = .ok s' (.int p)) :
    ∃ m' o, Lnk.step cfg strict w s m (.plain (.get k)) = .ok (s', m') (.int o) ∧
      Ledger.Balanced m.heap.imm m.heap.rc m'.heap.rc [o, o] := by
  refine ⟨_, _, ?_, (boxFor_grow true h hw p).balanced⟩
  simp only [Lnk.step, hg, plain, deliver]

example : LinkedList.step LedgerEx.cfg true ⟨[(0, 5)], 1, 0⟩ (.get (.idx (.int 0))) =
    .ok ⟨[(0, 5)], 1, 0⟩ (.int (box .i32 .ge313 5)) := rfl

/-- `l[a:b]` and `to_list` of an IntLinkedList: every element has one reference too many. -/
theorem C61_linked_list_leaks (cfg : Cfg) (strict : Bool) (w : World) (s s' : LinkedList.S) (m : Mem) (op : Op)
    (ps : List PyLong) (h : m.WF) (hw : w.Ready m.next) (ho : op = .toList ∨ ∃ k, op = .get k)
    (hg : LinkedList.step cfg strict s op = .ok s' (.pylist ps)) :
    ∃ m' c os, Lnk.step cfg strict w s m (.plain op) = .ok (s', m') (.list c os) ∧ os.length = ps.length ∧
      Ledger.Balanced m.heap.imm m.heap.rc m'.heap.rc (c :: os ++ os) := by
  have a := make_grow h
  have b := boxAll_grow true (ps := ps) (a.wf h) (hw.mono a.le)
  refine ⟨(boxAll true w ps m.make.1).1, m.make.2, (boxAll true w ps m.make.1).2, ?_, boxAll_length true w ps _,
    ((a.trans b).perm (List.perm_append_comm (l₂ := [_]))).balanced⟩
  rcases ho with rfl | ⟨k, rfl⟩ <;> simp only [Lnk.step, hg, plain, deliver]

example : LinkedList.step LedgerEx.cfg true ⟨[(0, 5), (1, 6)], 2, 0⟩ .toList =
    .ok ⟨[(0, 5), (1, 6)], 2, 0⟩ (.pylist [box .i32 .ge313 5, box .i32 .ge313 6]) := rfl

/-- `l + x` with `x` no IntLinkedList: as many references as the list has elements are never released, also when `+` raises
TypeError. -/
theorem C61_linked_add_leaks (cfg : Cfg) (strict : Bool) (w : World) (s : LinkedList.S) (m : Mem) (src : Operand) (h : m.WF)
    (hr : Ready w m (.add src)) (hf : src ≠ .self ∧ ∀ v, src ≠ .same v) :
    ∃ leak, leak.length = s.size ∧ ∀ s' m', (Lnk.step cfg strict w s m (.add src)).state? = some (s', m') →
      Ledger.Balanced m.heap.imm m.heap.rc m'.heap.rc (given w.self (Lnk.step cfg strict w s m (.add src)) ++ leak) := by
  obtain ⟨_, leak, b, c⟩ := add_ok true s h hr.ints (LinkedList.toList cfg s) (src := src) hr.known
  refine ⟨leak, ?_, fun s' m' e => (b s' m' e).balanced⟩
  have hc : leak = (boxAll true w (LinkedList.toList cfg s) m.make.1).2 := by
    cases src with
    | same v => exact absurd rfl (hf.2 v)
    | self => exact absurd rfl hf.1
    | items sh o it xs => exact c
    | notIterable => exact c
  rw [hc, boxAll_length]
  simp [LinkedList.toList, LState.size, LState.vals]

example : Ready LedgerEx.world LedgerEx.mem (.add LedgerEx.operand) ∧ LedgerEx.operand ≠ .self ∧
    ∀ v, LedgerEx.operand ≠ .same v := ⟨LedgerEx.ready_add, nofun, nofun⟩

/-- `l == x` of IntLinkedLists that answers True: as many references as there are elements are never released. -/
theorem C61_linked_eq_leaks (cfg : Cfg) (strict : Bool) (w : World) (s : LinkedList.S) (m : Mem) (v : List Int) (h : m.WF)
    (hw : w.Ready m.next) (ht : LinkedList.step cfg strict s (.cmp .eq (.same v)) = .ok s (.bool true)) :
    ∃ m' leak, Lnk.step cfg strict w s m (.cmp .eq (.same v)) = .ok (s, m') (.bool true) ∧ leak.length = s.size ∧
      Ledger.Balanced m.heap.imm m.heap.rc m'.heap.rc leak := by
  have ht : LinkedList.boolOut s (LinkedList.eq cfg s (.same v)).1 (LinkedList.eq cfg s (.same v)).2 = .ok s (.bool true) := ht
  have hv : (v.map (rebox .i32 cfg.py)).length = v.length := List.length_map _
  have hc : (v.map Elem.own).map (convert .i32 cfg) = v.map (rebox .i32 cfg.py) := by rw [List.map_map]; rfl
  simp only [LinkedList.eq, LinkedList.cmpItems, hv] at ht
  by_cases hn : v.length ≠ s.size
  · rw [if_pos hn] at ht; cases ht
  · rw [if_neg hn] at ht
    have hq : ArrayList.eqLoop s.vals (v.map (rebox .i32 cfg.py)) = (true, none) := by
      generalize ArrayList.eqLoop s.vals (v.map (rebox .i32 cfg.py)) = q at ht
      rcases q with ⟨b, _ | e⟩
      · simp only [LinkedList.boolOut] at ht
        injection ht with _ ht
        injection ht with ht
        rw [ht]
      · cases ht
    have hl : s.vals.length = s.size := by simp [LState.size, LState.vals]
    obtain ⟨m', leak, e, g, hlen⟩ := eqLoop_leak .i32 cfg (ys := v) h hw (by rw [hl]; exact Classical.not_not.1 hn)
      (by rw [hc]; exact hq)
    refine ⟨m', leak, ?_, hlen.trans hl, g.balanced⟩
    simp only [Lnk.step, Lnk.compare, Lnk.elems, Lnk.eq, List.length_map]
    rw [if_neg hn, e]
    rfl

example : LinkedList.step LedgerEx.cfg true ⟨[(0, 5), (1, 6)], 2, 0⟩ (.cmp .eq (.same [5, 6])) =
    .ok ⟨[(0, 5), (1, 6)], 2, 0⟩ (.bool true) := rfl

/-- So the claim for all calls is false: after `x = l[0]; del x` on the list `[5]` the int is still alive, with a count of 1
that nobody owns. -/
theorem C61_linked_negation :
    (¬ ∀ (cfg : Cfg) (strict : Bool) (w : World) (s s' : LinkedList.S) (m m' : Mem) (c : Call), m.WF → Ready w m c →
      (Lnk.step cfg strict w s m c).state? = some (s', m') →
      Ledger.Balanced m.heap.imm m.heap.rc m'.heap.rc (given w.self (Lnk.step cfg strict w s m c))) ∧
    ∃ m1 m2, Lnk.step LedgerEx.cfg true LedgerEx.world ⟨[(0, 5)], 1, 0⟩ LedgerEx.mem (.plain (.get (.idx (.int 0)))) =
      .ok (⟨[(0, 5)], 1, 0⟩, m1) (.int 10) ∧ LedgerEx.mem.heap.rc 10 = 0 ∧ m1.drop 10 = .ok m2 ∧ m2.heap.rc 10 = 1 := by
  refine ⟨fun hall => ?_, _, _, rfl, rfl, rfl, rfl⟩
  have := hall LedgerEx.cfg true LedgerEx.world ⟨[(0, 5)], 1, 0⟩ _ LedgerEx.mem _ (.plain (.get (.idx (.int 0)))) LedgerEx.wf
    (LedgerEx.ready_bare trivial) rfl 10 rfl
  exact absurd this (by decide)

end Verif.Props
