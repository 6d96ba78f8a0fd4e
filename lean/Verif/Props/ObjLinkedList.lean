import Verif.Props.ObjArrayList
import Verif.Lemmas.ObjLinkedList

/-!
# ObjectLinkedList: history, references, search, comparison, slices, arithmetic

C10 to C13, C25 and C29 to C33 for ObjectLinkedList. `ext` are the references held outside the list; `strict` selects
how a range insertion of a list into itself is read, every theorem holds for both.
-/

namespace Verif.Props

open Heap ObjLinked

/-- A list with the given contents. -/
def exLinked (xs : List Obj) (rc : Obj → Nat) : OLState := ⟨LState.pushAll ⟨[], 0, 0⟩ xs, exHeap rc⟩

/-! ## C33 histories -/

/-- C33 (ObjectLinkedList). Every history of calls in the domain gives, call by call, the result and the contents of
a Python list, and no undefined behaviour; the client holds the objects it passes in. -/
theorem C33_ObjectLinkedList_history_partial (H : OHost) (strict : Bool) (ext : Obj → Nat) (s : OLState)
    (ops : List OOp) (hc : Covered ext s.heap (vec s)) (hok : HistoryOk H (vec s) ops)
    (hh : ∀ op ∈ ops, Held ext s.heap op) :
    OAgreesAll ((run H strict s ops).map view) (Spec.orun H (vec s) ops) :=
  run_ok H strict ops s hc hok hh

example : HistoryOk exHost [4, 5]
    [.append 6, .insert (.int 0) 7, .setItem (.int (-1)) 4, .pop none, .extend (.tuple [8, 8]), .imul 2,
      .setSlice ⟨some (.int 0), some (.int 2), none⟩ (.list [6, 6, 6]), .reverse, .get (.idx (.int 0)),
      .remove 8, .clear] := by
  refine ⟨trivial, trivial, by simp [OpOk], ⟨trivial, by simp⟩, by simp [OpOk], trivial, ?_, trivial,
    by simp [OpOk], ?_, trivial, trivial⟩
  · refine ⟨by decide, .inr ⟨[6, 6, 6], rfl, ?_⟩⟩
    intro f h
    simp only [Spec.fields, Spec.field] at h
    cases h
    exact .inr ⟨rfl, .inr (by decide)⟩
  · show ∀ x ∈ _, _
    decide

/-- C33, deviation: `del l[a:b]` dereferences a null pointer for every list and every well-formed slice. -/
theorem C33_ObjectLinkedList_del_slice_null (H : OHost) (strict : Bool) (s : OLState) (sl : SliceArg) (f)
    (hf : Spec.fields sl = .ok f) : step H strict s (.del (.slice sl)) = .ub .nullDeref := by
  have e := (sliceUnpack_fields sl).1
  rw [hf] at e
  show del s (.slice sl) = _
  simp only [del, e]

/-- C33, deviation: a subscript that is neither an integer nor a slice is used as a slice object. -/
theorem C33_ObjectLinkedList_bad_key (H : OHost) (strict : Bool) (s : OLState) (o : Obj) :
    step H strict s (.get (.idx .other)) = .ub .typeConfusion ∧
    step H strict s (.setItem .other o) = .ub .typeConfusion ∧
    step H strict s (.del (.idx .other)) = .ub .typeConfusion := ⟨rfl, rfl, rfl⟩

/-! ## C25 pop -/

/-- C25 (ObjectLinkedList). `pop()` returns the last element, removes exactly it and passes the list's reference to
the caller. -/
theorem C25_ObjectLinkedList_pop_last_partial (H : OHost) (strict : Bool) (ext : Obj → Nat) (s : OLState) (x : Obj)
    (hx : (vec s).getLast? = some x) (hb : Balanced ext s.heap (vec s)) :
    ∃ s', step H strict s (.pop none) = .ok s' (.obj x) ∧ vec s' = (vec s).dropLast ∧
      Balanced (fun o => ext o + [x].count o) s'.heap (vec s') := by
  have hc : Covered ext s.heap (vec s) := fun o h => Nat.le_of_eq (hb o h).symm
  refine ⟨⟨(s.list.erase (s.list.size - 1)).bump, s.heap⟩, ?_, ?_, ?_⟩
  · show pop s none = _
    unfold pop
    rw [hx]
  · simp only [vec, LState.vals_bump, LState.vals_erase]
    rw [← LState.length_vals, List.eraseIdx_eq_take_drop_succ, List.dropLast_eq_take,
      List.drop_eq_nil_of_le (by omega), List.append_nil]
  · have e : vec ⟨(s.list.erase (s.list.size - 1)).bump, s.heap⟩ = (vec s).dropLast := by
      simp only [vec, LState.vals_bump, LState.vals_erase]
      rw [← LState.length_vals, List.eraseIdx_eq_take_drop_succ, List.dropLast_eq_take,
        List.drop_eq_nil_of_le (by omega), List.append_nil]
    rw [e]
    intro o ho
    have q := hb o ho
    have hne : vec s ≠ [] := by intro h; rw [h] at hx; cases hx
    have hl : (vec s).getLast hne = x := by
      rw [List.getLast?_eq_some_getLast hne] at hx; exact Option.some.inj hx
    have : (vec s).count o = (vec s).dropLast.count o + [x].count o := by
      conv => lhs; rw [← List.dropLast_concat_getLast hne, hl]
      rw [List.count_append]
    show s.heap.rc o = _
    dsimp only
    omega

/-- C25, deviation: `pop(i)` reads a freed node for every valid index of every list. -/
theorem C25_ObjectLinkedList_pop_index_negation (H : OHost) (strict : Bool) (s : OLState) (i : Int)
    (hn : ((vec s).length : Int) ≤ ssizeMax) (p : Nat) (hp : Spec.position (vec s).length i = some p) :
    step H strict s (.pop (some (.int i))) = .ub .useAfterFree := by
  have hlt := ArrayList.position_lt hp
  have hi : -((vec s).length : Int) ≤ i ∧ i < (vec s).length := by
    unfold Spec.position at hp
    split at hp
    · omega
    · split at hp
      · omega
      · cases hp
  have hfit : FitsS 64 i := by
    unfold FitsS
    simp only [ssizeMax] at hn
    omega
  show pop s (some (.int i)) = _
  unfold pop
  have hne : vec s ≠ [] := by intro h; rw [h] at hlt; simp at hlt
  rw [List.getLast?_eq_some_getLast hne]
  have e : asSsize (.int i) = (i, none) := by simp [asSsize, hfit]
  simp only [e, size_vec]
  generalize hj : (if i < 0 then i + ((vec s).length : Int) else i) = j
  have hj2 : 0 ≤ j ∧ j < (vec s).length := by subst hj; split <;> omega
  rw [if_neg (by omega), listAt_lt (by omega)]
  simp only
  rw [if_pos (by omega)]

example : Spec.position [4, 5, 6].length (-1) = some 2 := rfl

/-! ## C29 reference counts -/

/-- C29 (ObjectLinkedList). Over every session of calls in the domain, interleaved with the client giving up
references of its own: nothing freed is touched, the contents are the specified ones, and every mortal object is
counted once for each reference held by the client, once for each position in the list, and once for each reference
lost by an item assignment or `*= 0` before. When the list then dies, only the client's and the lost references
stay. -/
theorem C29_ObjectLinkedList_session_partial (H : OHost) (strict : Bool) (ext : Obj → Nat) (s : OLState)
    (es : List OEvent) (hb : Balanced ext s.heap (vec s)) (hok : SessionOk H s.heap.imm ext (vec s) es) :
    ∃ s' h, play H strict s es = some s' ∧ vec s' = Spec.contents H (vec s) es ∧ s'.heap.imm = s.heap.imm ∧
      (∀ o, s.heap.imm o = false → s'.heap.rc o =
        Spec.holdings H ext (vec s) es o + (vec s').count o + (lost H (vec s) es).count o) ∧
      dealloc s' = .ok h ∧
      ∀ o, s.heap.imm o = false → h.rc o = Spec.holdings H ext (vec s) es o + (lost H (vec s) es).count o := by
  obtain ⟨s', p1, p2, p3, p4⟩ := play_ok H strict es ext (fun _ => 0) s (fun o ho => hb o ho) hok
  obtain ⟨h, e, a⟩ := decrefs_ok (h := s'.heap) (xs := vec s') (fun o ho => by
    have := p4 o (by rw [← p3]; exact ho)
    omega)
  refine ⟨s', h, p1, p2, p3, fun o ho => by have := p4 o ho; omega, e, fun o ho => ?_⟩
  have q1 := p4 o ho
  have q2 := a.2 o (by rw [p3]; exact ho)
  dsimp only at q2
  omega

/-- C29 (ObjectLinkedList). In a session without item assignment and `*=` no reference is lost: every mortal object is
counted exactly once per reference held by the client or the list. -/
theorem C29_ObjectLinkedList_balanced_partial (H : OHost) (strict : Bool) (ext : Obj → Nat) (s : OLState)
    (es : List OEvent) (hb : Balanced ext s.heap (vec s)) (hok : SessionOk H s.heap.imm ext (vec s) es)
    (hl : ∀ op, OEvent.call op ∈ es → Lossless op) :
    ∃ s', play H strict s es = some s' ∧ Balanced (Spec.holdings H ext (vec s) es) s'.heap (vec s') := by
  obtain ⟨s', h, p1, p2, p3, p4, -, -⟩ := C29_ObjectLinkedList_session_partial H strict ext s es hb hok
  have hlost : lost H (vec s) es = [] := by
    clear hb hok p1 p2 p4 p3
    generalize vec s = l
    induction es generalizing l with
    | nil => rfl
    | cons e es ih =>
      cases e with
      | drop o => exact ih (fun op ho => hl op (by simp [ho])) l
      | call op =>
        have h1 : leaked l op = [] := by
          have := hl op (by simp)
          cases op <;> first | rfl | exact this.elim
        rw [lost, h1, ih (fun op ho => hl op (by simp [ho]))]
        rfl
  rw [hlost] at p4
  refine ⟨s', p1, fun o ho => ?_⟩
  rw [p3] at ho
  simpa using p4 o ho

example : Balanced (fun o => if o = 4 then 1 else 0)
      (exLinked [4, 6] fun o => if o = 4 then 2 else if o = 6 then 1 else 0).heap
      (vec (exLinked [4, 6] fun o => if o = 4 then 2 else if o = 6 then 1 else 0)) ∧
    SessionOk exHost (fun o => o == 0) (fun o => if o = 4 then 1 else 0) [4, 6]
      [.call (.append 4), .drop 4, .call (.pop none), .drop 4, .call (.get (.idx (.int 1))), .call .clear, .drop 6] := by
  refine ⟨?_, ?_⟩
  · intro o ho
    have : vec (exLinked [4, 6] fun o => if o = 4 then 2 else if o = 6 then 1 else 0) = [4, 6] := rfl
    rw [this]
    by_cases h4 : o = 4
    · subst h4; rfl
    · by_cases h6 : o = 6
      · subst h6; rfl
      · simp [exLinked, exHeap, h4, h6, Ne.symm h4, Ne.symm h6]
  · refine ⟨trivial, ?_, .inr (by decide), ⟨trivial, by simp⟩, ?_, .inr (by decide), by simp [OpOk], ?_, trivial, ?_,
      .inr (by decide), trivial⟩ <;> simp [Spec.mentioned]

/-- C29, deviation: item assignment never releases the element it replaces. -/
theorem C29_ObjectLinkedList_setItem_leaks (H : OHost) (strict : Bool) (ext : Obj → Nat) (s : OLState) (i : Int)
    (p : Nat) (old new : Obj) (hb : Balanced ext s.heap (vec s)) (hi : FitsS 64 i)
    (hp : Spec.position (vec s).length i = some p) (ho : (vec s)[p]? = some old)
    (hn : s.heap.imm new = true ∨ 0 < ext new) :
    ∃ s', step H strict s (.setItem (.int i) new) = .ok s' .none ∧ vec s' = (vec s).set p new ∧
      ∀ o, s.heap.imm o = false → s'.heap.rc o = ext o + (vec s').count o + if o = old then 1 else 0 := by
  obtain ⟨s', e, v, r⟩ := C29_ObjectArrayList_setItem_leaks ⟨.v312, false, false, false, false⟩ H 1 (by omega) ext
    (arr s) i p old new hb hi hp ho hn
  have e' : view (step H strict s (.setItem (.int i) new)) = .ok s' .none := by
    show view (setIdx s (.int i) new) = _
    rw [setIdx_view]
    exact e
  cases hs : step H strict s (.setItem (.int i) new) with
  | ok s2 r2 =>
    rw [hs] at e'
    simp only [view, Out.ok.injEq] at e'
    obtain ⟨rfl, rfl⟩ := e'
    exact ⟨s2, rfl, v, r⟩
  | exc s2 x => rw [hs] at e'; cases e'
  | pending s2 r2 x => rw [hs] at e'; cases e'
  | ub u => rw [hs] at e'; cases e'

/-- C29, deviation: `*= n` with `n ≤ 0` empties the list and releases nothing. -/
theorem C29_ObjectLinkedList_imul_leaks (H : OHost) (strict : Bool) (s : OLState) (n : Int) (hn : n ≤ 0) :
    step H strict s (.imul n) = .ok ⟨s.list.clear, s.heap⟩ .self := by
  show imul s n = _
  unfold imul
  have : (if n < 0 then 0 else n) = 0 := by split <;> omega
  simp only [this, if_true]

/-- C29, deviation: constructing a list from a list of the same class shares the references; when the original of a
non-empty list of mortal objects nobody else holds dies, the copy is left with freed objects. -/
theorem C29_ObjectLinkedList_constructor_uncounted (h : Heap) (v : List Obj) (hv : v ≠ [])
    (hm : ∀ o ∈ v, h.imm o = false) (hb : Balanced (fun _ => 0) h v) :
    ∃ s' h1, init h (some (.same v)) = .ok s' () ∧ vec s' = v ∧ h.decrefs v = .ok h1 ∧
      (∀ o ∈ vec s', h1.rc o = 0) ∧ dealloc ⟨s'.list, h1⟩ = .error .useAfterFree := by
  obtain ⟨_, h1, -, -, e2, e3, e4⟩ := C29_ObjectArrayList_constructor_uncounted h v hv hm hb
  have hv' : vec ⟨LState.pushAll ⟨[], 0, 0⟩ v, h⟩ = v := by
    show LState.vals _ = _
    rw [LState.vals_pushAll]; rfl
  refine ⟨⟨LState.pushAll ⟨[], 0, 0⟩ v, h⟩, h1, rfl, hv', e2, ?_, ?_⟩
  · rw [hv']
    intro o ho
    have e5 : h1.rc o = 0 := by
      obtain ⟨h2, e6, a⟩ := decrefs_ok (h := h) (xs := v) (fun o ho => by have := hb o ho; dsimp only at this; omega)
      have : h2 = h1 := by
        have e2' : h.decrefs v = .ok h1 := e2
        rw [e6] at e2'
        cases e2'; rfl
      subst this
      have q1 := a.2 o (hm o ho)
      have q2 := hb o (hm o ho)
      dsimp only at q1 q2
      omega
    exact e5
  · show h1.decrefs (vec ⟨LState.pushAll ⟨[], 0, 0⟩ v, h1⟩) = _
    have hv2 : vec ⟨LState.pushAll ⟨[], 0, 0⟩ v, h1⟩ = v := by
      show LState.vals _ = _
      rw [LState.vals_pushAll]; rfl
    rw [hv2]
    cases v with
    | nil => exact absurd rfl hv
    | cons x xs =>
      obtain ⟨h2, e6, a⟩ := decrefs_ok (h := h) (xs := x :: xs)
        (fun o ho => by have := hb o ho; dsimp only at this; omega)
      have : h2 = h1 := by
        have e2' : h.decrefs (x :: xs) = .ok h1 := e2
        rw [e6] at e2'
        cases e2'; rfl
      subst this
      have q1 := a.2 x (hm x (by simp))
      have q2 := hb x (hm x (by simp))
      have him : h2.imm x = false := by rw [a.1]; exact hm x (by simp)
      dsimp only at q1 q2
      have hz : h2.rc x = 0 := by omega
      rw [Heap.decrefs]
      simp [Heap.decref, him, hz]

/-- C29, deviation (`extend` read as the common implementations behave): `l.extend(l)` counts every element of the
doubled list again, so each old element is counted once too often per position. -/
theorem C29_ObjectLinkedList_extend_self_leaks (H : OHost) (ext : Obj → Nat) (s : OLState)
    (hb : Balanced ext s.heap (vec s)) :
    ∃ s', step H false s (.extend .self) = .ok s' .none ∧ vec s' = vec s ++ vec s ∧
      ∀ o, s.heap.imm o = false → s'.heap.rc o = ext o + (vec s').count o + (vec s).count o := by
  have hc : Covered ext s.heap (vec s) := fun o h => Nat.le_of_eq (hb o h).symm
  obtain ⟨h', e, a⟩ := increfs_ok (h := s.heap) (xs := vec s ++ vec s) (fun o ho => by
    simp only [List.mem_append, or_self] at ho
    exact hc.live ho)
  refine ⟨⟨(s.list.pushAll (vec s)).bump, h'⟩, ?_, by simp [vec], ?_⟩
  · show extend false s .self = _
    simp [extend, e, withHeap]
  · intro o ho
    have q1 := a.2 o ho
    have q2 := hb o ho
    have e3 : vec ⟨(s.list.pushAll (vec s)).bump, h'⟩ = vec s ++ vec s := by simp [vec]
    rw [e3]
    simp only [List.count_append] at q1 ⊢
    show h'.rc o = _
    omega

/-! ## C30 search -/

/-- C30 (ObjectLinkedList). `index`, `count` and `remove` agree with a Python list when no element is equal to the
sought object without being that object; `in` moreover only for ints and for objects not in the list. -/
theorem C30_ObjectLinkedList_search_partial (H : OHost) (strict : Bool) (ext : Obj → Nat) (s : OLState) (o : Obj)
    (hc : Covered ext s.heap (vec s)) (ho : s.heap.imm o = true ∨ 0 < ext o) (hid : OObj.IdEq H (vec s) o) :
    (∀ i j, ArrayList.BoundOk i → ArrayList.BoundOk j →
      OAgrees (view (step H strict s (.index o i j))) (Spec.ostep H (vec s) (.index o i j))) ∧
    OAgrees (view (step H strict s (.count o))) (Spec.ostep H (vec s) (.count o)) ∧
    OAgrees (view (step H strict s (.remove o))) (Spec.ostep H (vec s) (.remove o)) ∧
    (H.isInt o = true ∨ o ∉ vec s →
      OAgrees (view (step H strict s (.contains o))) (Spec.ostep H (vec s) (.contains o))) := by
  have hh : ∀ op, Spec.mentioned op = [o] → Held ext s.heap op := by
    intro op e x hx
    rw [e] at hx
    rw [List.mem_singleton.1 hx]
    exact ho
  exact ⟨fun i j h1 h2 => Does.agrees (step_does H strict hc (op := .index o i j) ⟨hid, h1, h2⟩ (hh _ rfl)),
    Does.agrees (step_does H strict hc (op := .count o) hid (hh _ rfl)),
    Does.agrees (step_does H strict hc (op := .remove o) hid (hh _ rfl)),
    fun h => Does.agrees (step_does H strict hc (op := .contains o) ⟨hid, h⟩ (hh _ rfl))⟩

/-- C30, deviation: an element that is equal to the sought object but is another object is never found. -/
theorem C30_ObjectLinkedList_misses_equal (H : OHost) (strict : Bool) (s : OLState) (x o : Obj)
    (hv : ∀ y ∈ vec s, y = x) (hne : vec s ≠ []) (hxo : x ≠ o) (heq : H.rich .eq x o = .ok true) :
    (view (step H strict s (.index o none none)) = .exc (arr s) .valueError ∧
      Spec.ostep H (vec s) (.index o none none) = (vec s, .ok (.int 0))) ∧
    (view (step H strict s (.count o)) = .ok (arr s) (.int 0) ∧
      Spec.ostep H (vec s) (.count o) = (vec s, .ok (.int (vec s).length))) ∧
    (view (step H strict s (.remove o)) = .exc (arr s) .valueError ∧
      Spec.ostep H (vec s) (.remove o) = ((vec s).tail, .ok .none)) ∧
    (view (step H strict s (.contains o)) = .ok (arr s) (.bool false) ∧
      Spec.ostep H (vec s) (.contains o) = (vec s, .ok (.bool true))) := by
  obtain ⟨⟨a1, a2⟩, ⟨b1, b2⟩, ⟨c1, c2⟩, ⟨d1, d2⟩⟩ := C30_ObjectArrayList_misses_equal
    ⟨.v312, false, false, false, false⟩ H 1 (arr s) x o hv hne hxo heq
  refine ⟨⟨?_, a2⟩, ⟨b1, b2⟩, ⟨?_, c2⟩, ⟨?_, d2⟩⟩
  · rw [step, index_view]; exact a1
  · rw [step, remove_view]; exact c1
  · rw [step, contains_view]; exact d1

/-- C30, deviation: `in` answers False for every object that is not an int, also for the elements of the list. -/
theorem C30_ObjectLinkedList_in_false (H : OHost) (strict : Bool) (s : OLState) (o : Obj)
    (hi : H.isInt o = false) : step H strict s (.contains o) = .ok s (.bool false) := by
  show contains H s o = _
  simp [contains, hi]

/-! ## C31 comparison -/

/-- C31 (ObjectLinkedList). `==` always, and the other operators in the domain `CmpOk`, answer like a Python list. -/
theorem C31_ObjectLinkedList_compare_partial (H : OHost) (strict : Bool) (ext : Obj → Nat)
    (s : OLState) (op : CmpOp) (src : OSrc) (hc : Covered ext s.heap (vec s)) (hh : Held ext s.heap (.cmp op src))
    (hok : OObj.CmpOk H op (vec s) src) :
    OAgrees (view (step H strict s (.cmp op src))) (Spec.ostep H (vec s) (.cmp op src)) :=
  Does.agrees (step_does H strict hc (op := .cmp op src) hok hh)

/-- C31, deviation: lists of different lengths. All four order operators answer whether the list is shorter. -/
theorem C31_ObjectLinkedList_order_lengths (H : OHost) (strict : Bool) (s : OLState) (op : CmpOp)
    (hop : op = .lt ∨ op = .le ∨ op = .gt ∨ op = .ge) (src : OSrc) (r : List Obj)
    (hr : Spec.asList (vec s) src = some r) (hl : r.length ≠ (vec s).length) :
    view (step H strict s (.cmp op src)) = .ok (arr s) (.bool (decide ((vec s).length < r.length))) := by
  rw [step, compare_view]
  exact C31_ObjectArrayList_order_lengths ⟨.v312, false, false, false, false⟩ H 1 (arr s) op hop src r hr hl

/-- C31, deviation: lists of equal positive length. The answer is that for the first elements alone. -/
theorem C31_ObjectLinkedList_order_first (H : OHost) (strict : Bool) (s : OLState) (op : CmpOp)
    (hop : op = .lt ∨ op = .le ∨ op = .gt ∨ op = .ge) (src : OSrc) (x y : Obj) (xs ys : List Obj)
    (hv : vec s = x :: xs) (hr : Spec.asList (vec s) src = some (y :: ys)) (hl : xs.length = ys.length)
    (hx : s.heap.imm x = true ∨ 0 < s.heap.rc x) :
    ∃ h', Adj s.heap h' (fun _ => 0) ∧ view (step H strict s (.cmp op src)) =
      match H.rich op x y with
      | .ok b => .ok ⟨vec s, h'⟩ (.bool b)
      | .error e => .exc ⟨vec s, h'⟩ e := by
  rw [step, compare_view]
  exact C31_ObjectArrayList_order_first ⟨.v312, false, false, false, false⟩ H 1 (arr s) op hop src x y xs ys hv hr hl hx

/-! ## C32 slice assignment -/

/-- C32 (ObjectLinkedList). `l[a:b] = s` with a sized sequence other than the list itself, when the slice does not end
before it starts or the value is not longer than it, and `l[a:b:c] = s` of equal length, replace exactly the
addressed elements; every count stays exact. -/
theorem C32_ObjectLinkedList_slice_assignment_partial (H : OHost) (strict : Bool) (ext : Obj → Nat) (s : OLState)
    (sl : SliceArg) (i j : Option Int) (k : Int) (src : OSrc) (xs : List Obj)
    (hs : ObjArray.sized src = some xs) (hfl : Spec.fields sl = .ok (i, j, k)) (hn : ((vec s).length : Int) ≤ ssizeMax)
    (hok : sliceOk (vec s) xs (i, j, k)) (hb : Balanced ext s.heap (vec s)) :
    ∃ s', step H strict s (.setSlice sl src) = .ok s' .none ∧
      vec s' = (if k = 1 then Spec.spliceAt (vec s) i j xs
        else Spec.overwrite (vec s) (Spec.positions (vec s).length i j k) xs) ∧
      Balanced ext s'.heap (vec s') := by
  have hc : Covered ext s.heap (vec s) := fun o h => Nat.le_of_eq (hb o h).symm
  have hd := setSlice_does hc (sl := sl) (src := src) H
    ⟨hn, .inr ⟨xs, hs, fun f hf => by rw [hfl] at hf; cases hf; exact hok⟩⟩
  have hitems : Spec.oitems (vec s) src = .ok (xs, none) := by
    cases src <;> simp_all [ObjArray.sized, Spec.oitems]
  have hspec : Spec.ostep H (vec s) (.setSlice sl src) =
      (if k = 1 then Spec.spliceAt (vec s) i j xs
        else Spec.overwrite (vec s) (Spec.positions (vec s).length i j k) xs, .ok .none) := by
    simp only [Spec.ostep, hfl, hitems]
    by_cases hk : k = 1
    · rw [if_pos hk, if_pos hk]
    · rw [if_neg hk, if_neg hk]
      rcases hok with h | h
      · rw [if_pos h.symm]
      · exact absurd h.1 hk
  rw [hspec] at hd
  obtain ⟨s', e, v, a⟩ := hd.out
  refine ⟨s', e, v, ?_⟩
  have := ObjArray.balanced_after (s := arr s) hb a
  rw [v]
  simpa [Spec.carried] using this

example : sliceOk [4, 5, 6] [7, 8] (some 0, none, 2) ∧ sliceOk [4, 5, 6] [7, 8] (some 1, some 1, 1) :=
  ⟨.inl (by decide), .inr ⟨rfl, .inr (by decide)⟩⟩

/-- C32, deviation: `l[a:b] = [x]` where the slice ends before it starts. Python inserts `x` at the start; the code
inserts it at the end of the slice and then overwrites the element at the start. -/
theorem C32_ObjectLinkedList_backward_slice (H : OHost) (strict : Bool) (ext : Obj → Nat) (s : OLState)
    (sl : SliceArg) (i j : Option Int) (x : Obj) (hfl : Spec.fields sl = .ok (i, j, 1))
    (hn : ((vec s).length : Int) ≤ ssizeMax) (a b : Nat)
    (ha : (i.map (Spec.clampUp (vec s).length)).getD 0 = (a : Int))
    (hb : (j.map (Spec.clampUp (vec s).length)).getD (vec s).length = (b : Int)) (hlt : b < a)
    (hc : Covered ext s.heap (vec s)) :
    ∃ s', step H strict s (.setSlice sl (.list [x])) = .ok s' .none ∧
      vec s' = ((vec s).take b ++ [x] ++ (vec s).drop b).set a x ∧
      Spec.ostep H (vec s) (.setSlice sl (.list [x])) = ((vec s).take a ++ [x] ++ (vec s).drop a, .ok .none) := by
  obtain ⟨start, stop, cnt, hadj, ⟨⟨k1, k2, k3⟩, hu⟩, q1, q2, b1, b2, b3, b4, hcn, -⟩ := ObjArray.slice_one hn hfl
  obtain ⟨rfl, hadj⟩ := hadj _ _ _ hu
  rw [ha] at q1
  rw [hb] at q2
  subst q1 q2
  have hs : ObjArray.sized (.list [x]) = some [x] := rfl
  have hc0 : cnt = 0 := by rw [hcn]; omega
  subst hc0
  obtain ⟨s1, e1, v1, a1⟩ := grow_ok hs 1 0 b s (by omega) (by simp)
  have hc1 := adj_covered hc a1
  have hl1 : (vec s1).length = (vec s).length + 1 := by
    rw [v1]; simp only [List.length_append, List.length_take, List.length_drop]; simp; omega
  obtain ⟨s2, e2, v2, a2⟩ := overwrite_ok hs (a : Int) 1 1 0 s1 hc1 (by simp) (by
    intro t ht
    rw [hl1]
    omega)
  refine ⟨s2, ?_, ?_, ?_⟩
  · show setSlice s sl (.list [x]) = _
    unfold setSlice
    rw [hu]
    simp only [size_vec, hadj, OSrc.isSequence, OSrc.size, List.length_singleton]
    have hrep : replace (.list [x]) a b 1 0 (1 : Nat) s = .ok s2 := by
      unfold replace
      simp only
      rw [if_neg (by omega), if_pos (by omega), if_neg (by omega), size_vec, listAt_lt (by omega)]
      simp only [Int.toNat_natCast]
      have : ((1 : Nat) - (0 : Int)).toNat = 1 := rfl
      rw [this]
      have h0 : (0 : Int).toNat = 0 := rfl
      rw [h0, e1]
      exact e2
    rw [hrep]
    rfl
  · rw [v2, v1]
    simp [Spec.overwrite]
  · simp only [Spec.ostep, hfl, Spec.oitems, if_true, Spec.spliceAt, ha, hb, Int.toNat_natCast]
    rw [Nat.max_eq_left (by omega)]

/-- `l[3:1] = [8]` on `[4, 5, 6, 7]`: `[4, 8, 5, 8, 7]` instead of `[4, 5, 6, 8, 7]`. -/
example : (([4, 5, 6, 7] : List Obj).take 1 ++ [8] ++ [4, 5, 6, 7].drop 1).set 3 8 = [4, 8, 5, 8, 7] ∧
    Spec.fields ⟨some (.int 3), some (.int 1), none⟩ = .ok (some 3, some 1, 1) ∧
    ((some 3).map (Spec.clampUp 4)).getD 0 = ((3 : Nat) : Int) := ⟨rfl, rfl, rfl⟩

/-- C32, deviation: an extended slice takes a value of another length and drops an element instead of raising
ValueError: `[a, b, c, d][::2] = [x]` gives `[x, b, d]`, for all objects. -/
theorem C32_ObjectLinkedList_step_wrong_length (H : OHost) (strict : Bool) (ext : Obj → Nat) (s : OLState)
    (a b c d x : Obj) (hv : vec s = [a, b, c, d]) (hc : Covered ext s.heap (vec s)) :
    (∃ s', step H strict s (.setSlice ⟨none, none, some (.int 2)⟩ (.list [x])) = .ok s' .none ∧ vec s' = [x, b, d]) ∧
    Spec.ostep H (vec s) (.setSlice ⟨none, none, some (.int 2)⟩ (.list [x])) = (vec s, .error .valueError) := by
  have hs : ObjArray.sized (.list [x]) = some [x] := rfl
  refine ⟨?_, by
    have e : Spec.positions 4 none none 2 = [0, 2] := by decide
    have hf : Spec.fields ⟨none, none, some (.int 2)⟩ = .ok (none, none, 2) := rfl
    rw [hv]; simp [Spec.ostep, hf, Spec.oitems, e]⟩
  obtain ⟨s1, e1, v1, a1⟩ := shrink_ok (ext := ext) 2 1 s (by rw [hv]; simp) hc
  have hc1 := adj_covered hc a1
  rw [hv] at v1
  obtain ⟨s2, e2, v2, a2⟩ := overwrite_ok hs (0 : Int) 2 1 0 s1 hc1 (by simp) (by
    intro t ht
    rw [v1]
    simp
    omega)
  refine ⟨s2, ?_, by rw [v2, v1]; rfl⟩
  show setSlice s ⟨none, none, some (.int 2)⟩ (.list [x]) = _
  unfold setSlice
  have hu : sliceUnpack ⟨none, none, some (.int 2)⟩ = .ok (0, ssizeMax, 2) := rfl
  rw [hu]
  have hsz : s.list.size = 4 := by rw [size_vec, hv]; rfl
  simp only [hsz]
  have hadj : adjustIndices (4 : Nat) 0 ssizeMax 2 = (0, 4, 2) := rfl
  simp only [hadj]
  have hrep : replace (.list [x]) 0 4 2 2 (1 : Nat) s = .ok s2 := by
    unfold replace
    simp only [hsz]
    rw [if_pos (by omega), if_neg (by omega), listAt_lt (by omega)]
    have h1 : ((2 : Int) - (1 : Nat)).toNat = 1 := rfl
    have h2 : ((0 : Int) + (1 : Nat) * 2).toNat = 2 := rfl
    simp only [h1, h2, e1]
    exact e2
  simp only [OSrc.isSequence, OSrc.size, List.length_singleton, hrep]
  rfl

/-- C32, deviation: assigning a list to its own reversed slice loses an element: `l[::-1] = l` on `[a, b]` gives
`[a, a]`, for all objects; Python gives `[b, a]`. -/
theorem C32_ObjectLinkedList_self_reversed (H : OHost) (strict : Bool) (ext : Obj → Nat) (s : OLState) (a b : Obj)
    (hv : vec s = [a, b]) (hc : Covered ext s.heap (vec s)) :
    (∃ s', step H strict s (.setSlice ⟨none, none, some (.int (-1))⟩ .self) = .ok s' .none ∧ vec s' = [a, a]) ∧
    Spec.ostep H (vec s) (.setSlice ⟨none, none, some (.int (-1))⟩ .self) = ([b, a], .ok .none) := by
  refine ⟨?_, by
    have e : Spec.positions 2 none none (-1) = [1, 0] := by decide
    have hf : Spec.fields ⟨none, none, some (.int (-1))⟩ = .ok (none, none, -1) := rfl
    rw [hv]; simp [Spec.ostep, hf, Spec.oitems, e, Spec.overwrite]⟩
  have hsz : s.list.size = 2 := by rw [size_vec, hv]; rfl
  -- first write: position 1
  have a1 := gain_adj s.heap a
  have live : ∀ {h' : Heap} {o : Obj} {δ : Obj → Int}, Adj s.heap h' δ → 0 ≤ δ o →
      (s.heap.imm o = true ∨ 0 < s.heap.rc o) → h'.imm o = true ∨ 0 < h'.rc o := by
    intro h' o δ ha hd ho
    rw [ha.1]
    by_cases him : s.heap.imm o = true
    · exact .inl him
    · right
      have q1 := ha.2 o (by simpa using him)
      have q2 := ho.resolve_left him
      omega
  have hlb : s.heap.imm b = true ∨ 0 < s.heap.rc b := hc.live (by rw [hv]; simp)
  have hla : s.heap.imm a = true ∨ 0 < s.heap.rc a := hc.live (by rw [hv]; simp)
  obtain ⟨h1, e1, d1⟩ := decref_ok (live a1 (by omega) hlb)
  -- second write: position 0, reading item 1, which is now `a`
  have a2 := gain_adj h1 a
  obtain ⟨h2, e2, d2⟩ := decref_ok (h := h1.gain a) (o := a) (by
    rw [a2.1, d1.1, a1.1]
    by_cases him : s.heap.imm a = true
    · exact .inl him
    · right
      have him : s.heap.imm a = false := by simpa using him
      have q2 := a2.2 a (by rw [d1.1, a1.1]; exact him)
      have : List.count a [a] = 1 := by simp
      dsimp only at q2
      rw [this] at q2
      omega)
  have hv1 : vec ⟨s.list.assign 1 a, h1⟩ = [a, a] := by
    have : s.list.vals = [a, b] := hv
    simp [vec, this]
  refine ⟨⟨(s.list.assign 1 a).assign 0 a, h2⟩, ?_, ?_⟩
  · show setSlice s ⟨none, none, some (.int (-1))⟩ .self = _
    unfold setSlice
    have hu : sliceUnpack ⟨none, none, some (.int (-1))⟩ = .ok (ssizeMax, -(2 ^ 63), -1) := rfl
    rw [hu]
    simp only [hsz]
    have hadj : adjustIndices (2 : Nat) ssizeMax (-(2 ^ 63)) (-1) = (1, -1, 2) := rfl
    simp only [hadj]
    have hsz1 : (s.list.assign 1 a).size = 2 := by
      have := congrArg List.length hv1
      rw [← size_vec] at this
      exact this
    have hrep : replace .self 1 (-1) (-1) 2 (2 : Nat) s = .ok ⟨(s.list.assign 1 a).assign 0 a, h2⟩ := by
      unfold replace
      simp only
      rw [if_neg (by omega), if_neg (by omega)]
      simp only [Int.toNat_natCast]
      rw [overwrite]
      have i1 : (1 : Int) + ((0 : Nat) : Int) * -1 = 1 := rfl
      simp only [i1, OSrc.elems, hv, hsz]
      rw [listAt_lt (by decide)]
      simp only [List.getElem?_cons_zero]
      rw [if_neg (by omega)]
      have g1 : ([a, b] : List Obj)[(1 : Int).toNat]? = some b := rfl
      simp only [g1, e1]
      have ht : (1 : Int).toNat = 1 := rfl
      rw [ht, overwrite]
      have i2 : (1 : Int) + ((0 + 1 : Nat) : Int) * -1 = 0 := rfl
      simp only [i2, OSrc.elems, hv1, hsz1]
      rw [listAt_lt (by decide)]
      have g2 : ([a, a] : List Obj)[0 + 1]? = some a := rfl
      simp only [g2]
      rw [if_neg (by omega)]
      have g3 : ([a, a] : List Obj)[(0 : Int).toNat]? = some a := rfl
      simp only [g3, e2]
      rfl
    have hlen : OSrc.size (vec s) .self = (2 : Nat) := by rw [hv]; rfl
    simp only [OSrc.isSequence, hlen, hrep]
    rfl
  · have h1 : (s.list.assign 1 a).vals = [a, a] := hv1
    simp [vec, h1]

/-! ## C10 to C13 arithmetic -/

/-- C10, deviation: `l + other` with a list of the same class, or with itself, raises MemoryError. -/
theorem C10_ObjectLinkedList_add_same_fails (H : OHost) (strict : Bool) (s : OLState) (v : List Obj) :
    step H strict s (.add (.same v)) = .exc s .memoryError ∧ step H strict s (.add .self) = .exc s .memoryError :=
  ⟨rfl, rfl⟩

/-- C10 (ObjectLinkedList). `l + other` with a Python list. -/
theorem C10_ObjectLinkedList_add_list (H : OHost) (strict : Bool) (ext : Obj → Nat) (s : OLState) (xs : List Obj)
    (hb : Balanced ext s.heap (vec s)) (hh : ∀ o ∈ xs, s.heap.imm o = true ∨ 0 < ext o) :
    ∃ s', step H strict s (.add (.list xs)) = .ok s' (.list (vec s ++ xs)) ∧ vec s' = vec s ∧
      Balanced (fun o => ext o + (vec s ++ xs).count o) s'.heap (vec s') := by
  have hc : Covered ext s.heap (vec s) := fun o h => Nat.le_of_eq (hb o h).symm
  obtain ⟨s', e, v, a⟩ := (step_does H strict hc (op := .add (.list xs)) ⟨by simp, by simp⟩ (fun o ho => hh o ho)).out
  refine ⟨s', e, v, ?_⟩
  have := ObjArray.balanced_after (s := arr s) hb a
  rw [v]
  exact this

/-- C11 (ObjectLinkedList). `l * n` is a new list with `max n 0` copies; `l` is unchanged. -/
theorem C11_ObjectLinkedList_mul (H : OHost) (strict : Bool) (ext : Obj → Nat) (s : OLState) (n : Int)
    (hb : Balanced ext s.heap (vec s)) :
    ∃ s', step H strict s (.mul n) = .ok s' (.newList (List.replicate n.toNat (vec s)).flatten) ∧ vec s' = vec s ∧
      Balanced (fun o => ext o + (List.replicate n.toNat (vec s)).flatten.count o) s'.heap (vec s') := by
  have hc : Covered ext s.heap (vec s) := fun o h => Nat.le_of_eq (hb o h).symm
  obtain ⟨s', e, v, a⟩ := (step_does H strict hc (op := .mul n) trivial (fun o ho => by cases ho)).out
  refine ⟨s', e, v, ?_⟩
  have := ObjArray.balanced_after (s := arr s) hb a
  rw [v]
  exact this

/-- C12 (ObjectLinkedList). `l *= n` leaves exactly `max n 0` copies, for every list and every `n`; for `n ≥ 1` every
count stays exact. -/
theorem C12_ObjectLinkedList_imul (H : OHost) (strict : Bool) (ext : Obj → Nat) (s : OLState) (n : Int)
    (hb : Balanced ext s.heap (vec s)) :
    ∃ s', step H strict s (.imul n) = .ok s' .self ∧ vec s' = (List.replicate n.toNat (vec s)).flatten ∧
      (1 ≤ n → Balanced ext s'.heap (vec s')) := by
  have hc : Covered ext s.heap (vec s) := fun o h => Nat.le_of_eq (hb o h).symm
  obtain ⟨s', e, v, a⟩ := (step_does H strict hc (op := .imul n) trivial (fun o ho => by cases ho)).out
  refine ⟨s', e, v, fun hn => ?_⟩
  have hl : leaked (vec s) (.imul n) = [] := by simp [leaked]; intro h; omega
  rw [hl] at a
  have := ObjArray.balanced_after (s := arr s) hb a
  rw [v]
  simpa [Spec.carried, Spec.ostep] using this

/-- C13 (ObjectLinkedList). `l += s` with anything iterable but a list of the class, and `extend` with anything but
the list itself, append the items, those before an exception included. -/
theorem C13_ObjectLinkedList_extend_partial (H : OHost) (strict : Bool) (ext : Obj → Nat) (s : OLState) (src : OSrc)
    (hs : src ≠ .self) (hc : Covered ext s.heap (vec s)) (hh : Held ext s.heap (.extend src)) :
    OAgrees (view (step H strict s (.extend src))) (Spec.ostep H (vec s) (.extend src)) ∧
    ((∀ v, src ≠ .same v) →
      OAgrees (view (step H strict s (.iadd src))) (Spec.ostep H (vec s) (.iadd src))) :=
  ⟨Does.agrees (step_does H strict hc (op := .extend src) hs hh),
    fun h => Does.agrees (step_does H strict hc (op := .iadd src) ⟨hs, h⟩ hh)⟩

/-- C13, deviation: `l += other` with a list of the class appends the contents but gives None. -/
theorem C13_ObjectLinkedList_iadd_same_none (H : OHost) (strict : Bool) (s : OLState) (v : List Obj)
    (hl : ∀ o ∈ v, s.heap.imm o = true ∨ 0 < s.heap.rc o) :
    ∃ s', step H strict s (.iadd (.same v)) = .ok s' .none ∧ vec s' = vec s ++ v := by
  obtain ⟨h', e, _⟩ := increfs_ok hl
  refine ⟨⟨s.list.pushAll v, h'⟩, ?_, by simp [vec]⟩
  show iadd strict s (.same v) = _
  simp only [iadd, e, withHeap]

end Verif.Props
