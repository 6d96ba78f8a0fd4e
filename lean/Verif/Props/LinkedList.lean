import Verif.Lemmas.LinkedSession
import Verif.Lemmas.Get

/-!
# C15, C24, C25, C26: IntLinkedList

`strict = true` reads a range insertion of a list into itself as the C++ standard does (undefined),
`strict = false` as libstdc++ implements it.
-/

namespace Verif.Props

open Verif LinkedList

/-! ## C26: positional lookup -/

/-- C26: for every length and every position the walk ends at that position (at `end()` for a position past the
last node) and never steps over either end. -/
theorem C26_lookup (n i : Nat) : (i < n → listAt n i = .ok i) ∧ (n ≤ i → listAt n i = .ok n) := by
  constructor <;> intro h <;> rw [listAt_eq] <;> congr 1 <;> omega

/-- C26 at the API: on any state the value found at a valid position is the value there, in any other case no node
is dereferenced. -/
theorem C26_lookup_value (s : LState Int) (i : Nat) :
    (∀ h : i < s.vals.length, deref s i = .ok s.vals[i]) ∧
    (s.vals.length ≤ i → deref s i = .error .outOfBounds) := by
  constructor
  · intro h; rw [deref_eq, List.getElem?_eq_getElem h]
  · intro h; rw [deref_eq, List.getElem?_eq_none h]

/-- Both walking directions occur. -/
example : listAt 9 2 = .ok 2 ∧ listAt 9 7 = .ok 7 ∧ listAt 9 9 = .ok 9 := ⟨rfl, rfl, rfl⟩

/-! ## C24: histories -/

/-- Outcomes of a history, as seen through the contents. -/
def lviews (os : List LLOut) : List LOut := os.map view

/-- Full statement of C24. -/
def C24_full (cfg : Cfg) (strict : Bool) : Prop :=
  ∀ (s : LState Int) ops, s.WF → AllFits .i32 s.vals →
    AgreesAll (lviews (run cfg strict s ops)) (Spec.run 32 s.vals ops)

/-- C24 on histories inside the domain `HistoryOk` (Spec/GuardLinked.lean). Missing for the full statement: the
excluded calls, each of which deviates (`C24_…_negation`, C25, C12, C13, C15). -/
theorem C24_history_partial (cfg : Cfg) (strict : Bool) (s : LState Int) (ops : List Op)
    (hl : AllFits .i32 s.vals) (h : HistoryOk cfg s.vals ops) :
    AgreesAll (lviews (run cfg strict s ops)) (Spec.run 32 s.vals ops) := by
  induction ops generalizing s with
  | nil => exact trivial
  | cons op ops ih =>
    have ha := step_agrees cfg strict s op hl h.1
    have hst := ArrayList.agrees_state ha
    obtain ⟨s', h1, h2⟩ : ∃ s', (step cfg strict s op).state? = some s' ∧ s'.vals = (Spec.step 32 s.vals op).1 := by
      revert hst
      cases step cfg strict s op with
      | ok s' r => intro hst; exact ⟨s', rfl, Option.some.inj hst⟩
      | exc s' e => intro hst; exact ⟨s', rfl, Option.some.inj hst⟩
      | pending s' r e => intro hst; exact ⟨s', rfl, Option.some.inj hst⟩
      | ub u => intro hst; cases hst
    rw [run, Spec.run, h1]
    refine ⟨ha, ?_⟩
    have hf : AllFits .i32 s'.vals := by rw [h2]; exact ArrayList.spec_fits .i32 s.vals op hl
    have := ih s' hf (by rw [h2]; exact h.2)
    rw [h2] at this
    exact this

/-- A history over most methods meets the hypotheses (CPython 3.13). -/
example : HistoryOk ⟨.ge313, false, true, true, true⟩ [5, 7]
    [.append (.int 3), .extend (.tuple [.int 9, .index 4]), .insert (.int (-1)) (.int 8), .pop none,
     .remove (.int 3), .index (.int 8) none (some (.int (-1))), .count (.int 8),
     .contains (.int 70), .get (.idx (.int (-1))), .get (.slice ⟨none, none, some (.int (-1))⟩),
     .set (.idx (.int 0)) (.inl (.int 6)), .set (.slice ⟨some (.int 1), none, none⟩) (.inr (.list [.int 1, .int 2])),
     .del (.idx (.int 0)), .reverse, .iadd (.iter [.int 1] (some (.user 1))), .cmp .lt .self, .mul 3,
     .clear, .copy, .toList, .len, .repr, .imul 0] := by decide

/-- C24, memory: over every history whatsoever the node identities stay distinct, so no node is linked twice and
an iterator or position always denotes one node. -/
theorem C24_nodes_distinct (cfg : Cfg) (strict : Bool) (s : LState Int) (ops : List Op) (hs : s.WF) :
    ∀ o ∈ run cfg strict s ops, ∀ s', o.state? = some s' → s'.ids.Nodup := by
  induction ops generalizing s with
  | nil => intro o ho; cases ho
  | cons op ops ih =>
    intro o ho s' hs'
    have hw := step_wf cfg strict s op hs
    rw [run] at ho
    rcases List.mem_cons.1 ho with rfl | ho
    · exact (hw s' hs').1
    · revert ho
      cases hst : (step cfg strict s op).state? with
      | none => intro ho; cases ho
      | some s1 => intro ho; exact ih s1 (hw s1 hst) o ho s' hs'

/-- C24 fails in every configuration: `append` of a non-number appends -1 and reports success with an exception
left set, on every list. -/
theorem C24_append_negation (cfg : Cfg) (strict : Bool) (s : LState Int) :
    step cfg strict s (.append .other) = .pending ((s.push (-1)).bump) .none .typeError ∧
    Spec.step 32 s.vals (.append .other) = (s.vals, .error .typeError) := ⟨rfl, rfl⟩

theorem C24_negation (cfg : Cfg) (strict : Bool) : ¬ C24_full cfg strict := by
  intro h
  have := (h ⟨[], 0, 0⟩ [.append .other] (LState.wf_empty 0 0) (by intro v hv; cases hv)).1
  exact this

/-- C24: item assignment of a non-number overwrites the element by -1. -/
theorem C24_set_negation (cfg : Cfg) (strict : Bool) (s : LState Int) (i : Nat) (hi : i < s.vals.length)
    (h64 : (s.vals.length : Int) ≤ ssizeMax) :
    step cfg strict s (.set (.idx (.int i)) (.inl .other)) = .pending (s.assign i (-1)) .none .typeError := by
  have key : ∀ v : Int, 0 ≤ v → v < s.size → v < ssizeMax →
      step cfg strict s (.set (.idx (.int v)) (.inl .other)) = .pending (s.assign v.toNat (-1)) .none .typeError := by
    intro v h0 h1 h2
    have hw : asSsizeIndex (.int v) = (v, none) := by
      rw [ArrayList.asSsizeIndex_eq]
      have : Spec.InRange 64 v := by unfold Spec.InRange; unfold ssizeMax at h2; omega
      simp [Spec.word, this]
    simp only [step, assSubscript, hw, setItem]
    rw [if_neg (show ¬ v < 0 by omega), if_neg (by omega), listAt_eq]
    simp only [show min v.toNat s.size = v.toNat by omega]
    rw [if_pos (by omega)]
    rfl
  rw [LState.length_vals] at hi h64
  exact key i (by omega) (by omega) (by omega)

/-- C24: a failing `extend` leaves a -1 that was never offered, whatever the list. -/
theorem C24_extend_negation (cfg : Cfg) (strict : Bool) (s : LState Int) (xs : List Arg) :
    view (step cfg strict s (.extend (.list (.other :: xs)))) = .exc (s.vals ++ [-1]) .typeError := by
  have e : toElem .i32 .other = (-1, some .typeError) := rfl
  have : pushLoop (.other :: xs) s = (s.push (-1), some .typeError, xs.isEmpty) := by rw [pushLoop, e]
  simp only [step, extendWith, pushItems, this]
  cases xs <;> simp [view, Out.mapState]

/-- C24: deleting a slice dereferences a null pointer, for every list and every valid slice. -/
theorem C24_del_slice_negation (cfg : Cfg) (strict : Bool) (s : LState Int) (sl : SliceArg) (f : _)
    (h : Spec.fields sl = .ok f) : step cfg strict s (.del (.slice sl)) = .ub .nullDeref := by
  simp only [step, assSubscript]
  rw [(sliceUnpack_fields sl).1, h]

/-- The hypothesis is met by `l[1:2]`. -/
example : Spec.fields ⟨some (.int 1), some (.int 2), none⟩ = .ok (some 1, some 2, 1) := rfl

/-! ## C25: pop -/

/-- C25 without index: the last element is returned (boxed, see C01) and exactly it is removed. -/
theorem C25_pop_last_partial (cfg : Cfg) (strict : Bool) (s : LState Int) (x : Int)
    (hx : s.vals.getLast? = some x) :
    view (step cfg strict s (.pop none)) = .ok s.vals.dropLast (.int (box .i32 cfg.py x)) := by
  simp only [step]
  rw [pop_view, ArrayList.pop, hx]

/-- C25 fails for every valid index on every list: the node is erased before its value is read. -/
theorem C25_pop_index_negation (cfg : Cfg) (strict : Bool) (s : LState Int) (i : Int)
    (hn : (s.vals.length : Int) ≤ ssizeMax) (p : Nat) (hp : Spec.position s.vals.length i = some p) :
    step cfg strict s (.pop (some (.int i))) = .ub .useAfterFree := by
  have hlt := ArrayList.position_lt hp
  rw [ArrayList.position_eq] at hp
  rw [LState.length_vals] at hp hn hlt
  simp only at hp
  generalize hj : (if i < 0 then i + (s.size : Int) else i) = j at hp
  have hfit : FitsS 64 i := by
    unfold FitsS; unfold ssizeMax at hn
    have : ¬ (j < 0 ∨ (s.size : Int) ≤ j) := by intro hc; simp [hc] at hp
    subst hj
    split at this <;> omega
  obtain ⟨x, hx⟩ : ∃ x, s.vals.getLast? = some x := by
    cases hl : s.vals.getLast? with
    | none =>
      rw [List.getLast?_eq_none_iff] at hl
      have := LState.length_vals s
      rw [hl] at this
      simp at this; omega
    | some x => exact ⟨x, rfl⟩
  simp only [step, pop, hx, asSsize]
  rw [if_pos hfit]
  simp only [hj]
  by_cases hc : j < 0 ∨ j ≥ (s.size : Int)
  · simp [hc] at hp
  · rw [if_neg hc, listAt_eq]
    simp only
    rw [if_pos (by omega)]

/-- A three-element list has valid indices 0 and -1. -/
example : Spec.position [4, 5, 6].length 0 = some 0 ∧ Spec.position [4, 5, 6].length (-1) = some 2 := by decide

/-! ## C15: comparison -/

/-- C15, equality: `==` and `!=` against a list of ints that survive boxing are Python's. -/
theorem C15_eq_partial (cfg : Cfg) (strict : Bool) (s : LState Int) (src : Src) (v : List Int)
    (hf : AllFits .i32 s.vals) (h : CmpInts cfg s.vals src = some v) :
    step cfg strict s (.cmp .eq src) = .ok s (.bool (decide (s.vals = v))) ∧
    step cfg strict s (.cmp .ne src) = .ok s (.bool (decide (s.vals ≠ v))) := by
  simp only [step, LinkedList.compare, eq_ints hf h, boolOut]
  simp

/-- C15, order: against a list of the same length, `<` and `>` are Python's; `<=` and `>=` are Python's unless the
lists are equal. -/
theorem C15_order_partial (cfg : Cfg) (strict : Bool) (s : LState Int) (op : CmpOp) (src : Src) (v : List Int)
    (hf : AllFits .i32 s.vals) (h : CmpInts cfg s.vals src = some v) (hl : v.length = s.vals.length)
    (hop : op = .lt ∨ op = .gt ∨ ((op = .le ∨ op = .ge) ∧ s.vals ≠ v)) :
    step cfg strict s (.cmp op src) = .ok s (.bool (Spec.compare op s.vals v)) := by
  have hop4 : op = .lt ∨ op = .le ∨ op = .gt ∨ op = .ge := by
    rcases hop with h | h | ⟨h | h, -⟩ <;> simp [h]
  simp only [step]
  rw [ord_value op hop4 hf h]
  rw [LState.length_vals] at hl
  rw [if_neg (by simp [hl])]
  by_cases hv : s.vals = v
  · rw [if_pos hv]
    subst hv
    rcases hop with rfl | rfl | ⟨-, h⟩
    · simp [Spec.compare, lexLt_irrefl]
    · simp [Spec.compare, lexLt_irrefl]
    · exact absurd rfl h
  · rw [if_neg hv]

/-- C15 fails: `l <= l` and `l >= l` are False for every list whose elements survive boxing. -/
theorem C15_reflexive_negation (cfg : Cfg) (strict : Bool) (s : LState Int) (hf : AllFits .i32 s.vals)
    (hb : cfg.py = .le311 ∨ ∀ x ∈ s.vals, 0 ≤ x) :
    step cfg strict s (.cmp .le .self) = .ok s (.bool false) ∧
    step cfg strict s (.cmp .ge .self) = .ok s (.bool false) ∧
    Spec.compare .le s.vals s.vals = true ∧ Spec.compare .ge s.vals s.vals = true := by
  have hc : CmpInts cfg s.vals .self = some s.vals := by simp [CmpInts, hb]
  simp only [step]
  rw [ord_value .le (by simp) hf hc, ord_value .ge (by simp) hf hc]
  simp [Spec.compare]

/-- C15 fails for different lengths: the shorter list is less *and* less-or-equal *and* greater *and*
greater-or-equal, the longer one none of them, whatever the elements. -/
theorem C15_length_negation (cfg : Cfg) (strict : Bool) (s : LState Int) (op : CmpOp) (src : Src) (v : List Int)
    (hop : op = .lt ∨ op = .le ∨ op = .gt ∨ op = .ge)
    (hf : AllFits .i32 s.vals) (h : CmpInts cfg s.vals src = some v) (hl : v.length ≠ s.vals.length) :
    step cfg strict s (.cmp op src) = .ok s (.bool (decide (s.vals.length < v.length))) := by
  simp only [step]
  rw [ord_value op hop hf h]
  rw [LState.length_vals] at hl ⊢
  rw [if_pos (Ne.symm hl)]

/-- So `[2] > [1, 1]` … `[2] < [1, 1]` is True although Python says False. -/
example : step ⟨.ge313, false, true, true, true⟩ true ⟨[(0, 2)], 1, 0⟩ (.cmp .lt (.list [.int 1, .int 1])) =
    .ok ⟨[(0, 2)], 1, 0⟩ (.bool true) ∧ Spec.compare .lt [2] [1, 1] = false := by decide

/-- C15 fails on CPython 3.12 and later: a list with a negative element is not equal to itself (nor to its copy),
except for elements -2^31. -/
theorem C15_negative_negation (cfg : Cfg) (strict : Bool) (hpy : cfg.py ≠ .le311) (x : Int)
    (hx : -(2 ^ 31) < x) (h0 : x < 0) (id fresh m : Nat) :
    step cfg strict ⟨[(id, x)], fresh, m⟩ (.cmp .eq (.same [x])) = .ok ⟨[(id, x)], fresh, m⟩ (.bool false) := by
  have hr := rebox_negative cfg hpy (v := x) (by rw [fits32]; omega) h0 (by omega)
  obtain ⟨h1, h2⟩ : (rebox .i32 cfg.py x).2 = none ∧ (rebox .i32 cfg.py x).1 ≠ x := by
    rw [hr]; exact ⟨rfl, by simp only; omega⟩
  simp only [step, LinkedList.compare, eq, cmpItems, List.map_cons, List.map_nil, List.length_cons, List.length_nil]
  generalize rebox .i32 cfg.py x = y at h1 h2
  obtain ⟨y, e⟩ := y
  simp only at h1 h2
  subst h1
  simp [LState.size, LState.vals, ArrayList.eqLoop, boolOut, Ne.symm h2]

end Verif.Props
