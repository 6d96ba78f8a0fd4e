import Verif.Lemmas.ArrayListStep

/-!
# C03, C04, C05, C08, C18, C19, C47: IntArrayList / BigIntArrayList as Python lists

`K = .i32` is IntArrayList, `K = .i64` BigIntArrayList.
-/

namespace Verif.Props

open Verif ArrayList

/-! ## C03: histories -/

/-- Full statement of C03 for one class: every history agrees with the Python list call by call. -/
def C03_full (cfg : Cfg) (K : Kind) : Prop :=
  ∀ l ops, AllFits K l → AgreesAll (run cfg K l ops) (Spec.run K.bits l ops)

/-- C03, on histories inside the domain `HistoryOk` (Spec/Guard.lean). Missing for the full statement:
the excluded calls, each of which deviates (theorems `C03_…_negation`, C01, C02, C05, C07, C10-C13). -/
theorem C03_history_partial (cfg : Cfg) (K : Kind) (l : List Int) (ops : List Op) (hl : AllFits K l)
    (h : HistoryOk cfg K l ops) : AgreesAll (run cfg K l ops) (Spec.run K.bits l ops) := by
  induction ops generalizing l with
  | nil => exact trivial
  | cons op ops ih =>
    have ha := step_agrees cfg K l op hl h.1
    rw [run, Spec.run, agrees_state ha]
    exact ⟨ha, ih _ (spec_fits K l op hl) h.2⟩

/-- A history over most methods on CPython 3.13 with AVX2 meets the hypotheses. -/
example : HistoryOk ⟨.ge313, false, true, true, true⟩ .i32 [5, 7]
    [.append (.int 3), .extend (.tuple [.int 9, .index 4, .other]), .insert (.int (-1)) (.int 8), .pop none,
     .pop (some (.int 0)), .remove (.int 3), .index (.int 8) none (some (.int (-1))), .count (.int 8),
     .contains (.int 70), .get (.idx (.int (-1))), .get (.slice ⟨none, none, some (.int (-1))⟩),
     .set (.idx (.int 0)) (.inl (.int 6)), .set (.slice ⟨some (.int 1), none, none⟩) (.inr (.list [.int 1, .int 2])),
     .del (.idx (.int 0)), .reverse, .resize (.int 4), .iadd (.iter [.int 1] (some (.user 1))), .cmp .lt .self,
     .clear, .copy, .toList, .len, .repr, .imul 0] := by decide

/-- For BigIntArrayList every value reads back as itself; its domain has no condition on stored values. -/
example : HistoryOk ⟨.v312, true, true, true, true⟩ .i64 [-5, 2 ^ 40]
    [.append (.int (-(2 ^ 63))), .append (.int (2 ^ 64)), .toList, .get (.idx (.int 0)), .pop none] := by decide

/-- C03 fails for both classes on every configuration: `l.count(2**64)` raises OverflowError on the empty
list (a Python list answers 0). -/
theorem C03_negation (cfg : Cfg) (K : Kind) : ¬ C03_full cfg K := by
  intro h
  have := (h [] [.count (.int (2 ^ 64))] (fun _ h => absurd h List.not_mem_nil)).1
  cases K <;> exact this

/-- Further deviation: `l.extend(l)` passes the vector's own iterators to `vector::insert`, which the C++
standard excludes, for every list. -/
theorem C03_extend_self_negation (cfg : Cfg) (K : Kind) (l : List Int) :
    step cfg K l (.extend .self) = .ub .badIterator := rfl

/-- Further deviation: `pop` with an object that has `__index__` raises TypeError where a Python list pops,
on every non-empty list. -/
theorem C03_pop_index_negation (cfg : Cfg) (K : Kind) (l : List Int) (hl : l ≠ []) :
    step cfg K l (.pop (some (.index 0))) = .exc l .typeError ∧
    ∃ v, Spec.step K.bits l (.pop (some (.index 0))) = (l.tail, .ok (.int v)) := by
  cases l with
  | nil => exact absurd rfl hl
  | cons x xs =>
    constructor
    · simp only [step, pop]
      rw [List.getLast?_cons]
      rfl
    · refine ⟨x, ?_⟩
      have h1 : Spec.word .overflowError (.index 0) = .ok 0 := rfl
      have h2 : Spec.position (x :: xs).length 0 = some 0 := by
        simp [Spec.position]
      simp only [Spec.step, h1, h2]
      simp

/-! ## C04: index safety -/

/-- C04 for reading, assigning and deleting: every Python int as index either addresses the element a
Python list addresses (`Spec.position`) or raises IndexError and changes nothing; never undefined
behaviour. The read returns the boxed element (the boxing itself is C01). -/
theorem C04_index_exact (cfg : Cfg) (K : Kind) (l : List Int) (i : Int) (hn : (l.length : Int) ≤ ssizeMax) :
    (∀ p, Spec.position l.length i = some p → ∃ x, l[p]? = some x ∧
      step cfg K l (.get (.idx (.int i))) = .ok l (.int (box K cfg.py x)) ∧
      (∀ v, FitsS K.bits v → step cfg K l (.set (.idx (.int i)) (.inl (.int v))) = .ok (l.set p v) .none) ∧
      step cfg K l (.del (.idx (.int i))) = .ok (l.eraseIdx p) .none ∧
      step cfg K l (.pop (some (.int i))) = .ok (l.eraseIdx p) (.int (box K cfg.py x))) ∧
    (Spec.position l.length i = none →
      step cfg K l (.get (.idx (.int i))) = .exc l .indexError ∧
      (∀ v, step cfg K l (.set (.idx (.int i)) v) = .exc l .indexError) ∧
      step cfg K l (.del (.idx (.int i))) = .exc l .indexError ∧
      (step cfg K l (.pop (some (.int i))) = .exc l .indexError ∨
        (¬ FitsS 64 i ∧ step cfg K l (.pop (some (.int i))) = .exc l .overflowError))) := by
  have hidx : asSsizeIndex (.int i) = if FitsS 64 i then (i, none) else (-1, some .indexError) := rfl
  have hw : Spec.word .overflowError (.int i) = if FitsS 64 i then .ok i else .error .overflowError := rfl
  have hpop := pop_eq cfg K l (some (.int i)) (by simp)
  constructor
  · intro p hp
    have hlt := position_lt hp
    have h64 : FitsS 64 i := by
      unfold ssizeMax at hn
      have : -(l.length : Int) ≤ i ∧ i < l.length := by
        unfold Spec.position at hp
        split at hp
        · omega
        · split at hp
          · omega
          · cases hp
      rw [fits64]; omega
    have hne : l ≠ [] := by rintro rfl; simp at hlt
    have hx : l.getD p 0 = l[p] := by simp [List.getD_eq_getElem?_getD, List.getElem?_eq_getElem hlt]
    have hset : ∀ v : Int, l.take p ++ v :: l.drop (p + 1) = l.set p v := by
      intro v; rw [List.set_eq_take_append_cons_drop, if_pos hlt]
    have her : l.take p ++ l.drop (p + 1) = l.eraseIdx p := by rw [List.eraseIdx_eq_take_drop_succ]
    refine ⟨l[p], List.getElem?_eq_getElem hlt, ?_, ?_, ?_, ?_⟩
    · simp only [step, subscript, hidx, if_pos h64, getItem_eq, hp, hx]
    · intro v hv
      simp only [step, assSubscript, hidx, if_pos h64, setItem_eq, hp, toElem_int hv, hset]
    · simp only [step, assSubscript, hidx, if_pos h64, setItem_eq, hp, her]
    · simp only [step, hpop, if_neg hne, hw, if_pos h64, hp, her, hx]
  · intro hp
    by_cases h64 : FitsS 64 i
    · refine ⟨?_, ?_, ?_, ?_⟩
      · simp only [step, subscript, hidx, if_pos h64, getItem_eq, hp]
      · intro v
        cases v <;> simp only [step, assSubscript, hidx, if_pos h64, setItem_eq, hp]
      · simp only [step, assSubscript, hidx, if_pos h64, setItem_eq, hp]
      · left
        simp only [step, hpop, hw, if_pos h64, hp]
        split <;> rfl
    · refine ⟨?_, ?_, ?_, ?_⟩
      · simp only [step, subscript, hidx, if_neg h64]
      · intro v
        simp only [step, assSubscript, hidx, if_neg h64]
      · simp only [step, assSubscript, hidx, if_neg h64]
      · simp only [step, hpop, hw, if_neg h64]
        by_cases hl : l = []
        · simp [hl]
        · simp [hl, h64]

example : Spec.position [4, 5, 6].length (-1) = some 2 := by decide
example : Spec.position [4, 5, 6].length (2 ^ 70) = none := by decide

/-! ## C05: searching -/

/-- C05 for values of the element type, every contents and all bounds of the machine word. Missing:
values outside the element type (see the negations). -/
theorem C05_search_partial (cfg : Cfg) (K : Kind) (l : List Int) (v : Int) (i j : Option Arg)
    (hv : FitsS K.bits v) (hi : BoundOk i) (hj : BoundOk j) :
    Agrees (step cfg K l (.index (.int v) i j)) (Spec.step K.bits l (.index (.int v) i j)) ∧
    Agrees (step cfg K l (.count (.int v))) (Spec.step K.bits l (.count (.int v))) ∧
    Agrees (step cfg K l (.contains (.int v))) (Spec.step K.bits l (.contains (.int v))) ∧
    Agrees (step cfg K l (.remove (.int v))) (Spec.step K.bits l (.remove (.int v))) := by
  refine ⟨?_, count_ok K l v hv, contains_ok K l (.int v) (by rintro w h; cases h; exact hv), remove_ok K l v hv⟩
  have hb : ∀ o : Option Arg, BoundOk o → ∀ x, o = some x → x = .other ∨ ∃ v, Spec.word .overflowError x = .ok v := by
    rintro o ho x rfl
    cases x with
    | other => exact .inl rfl
    | int v | index v => exact .inr ⟨v, if_pos (show FitsS 64 v from ho)⟩
  exact index_ok K l v i j hv (hb i hi) (hb j hj)

example : FitsS Kind.i32.bits (-7) ∧ BoundOk (some (.int (-2))) ∧ BoundOk none := by decide

/-- C05 fails for IntArrayList: every integer of the machine word outside the element type is found as the
int it is congruent to modulo 2^32, which is another value. -/
theorem C05_truncation_negation (cfg : Cfg) (v : Int) (h64 : FitsS 64 v) (h32 : ¬ FitsS 32 v) :
    ∃ w, w ≠ v ∧ FitsS 32 w ∧
      step cfg .i32 [w] (.contains (.int v)) = .ok [w] (.bool true) ∧
      step cfg .i32 [w] (.count (.int v)) = .ok [w] (.int (canon 1)) ∧
      step cfg .i32 [w] (.remove (.int v)) = .ok [] .none ∧
      Spec.step 32 [w] (.contains (.int v)) = ([w], .ok (.bool false)) ∧
      Spec.step 32 [w] (.remove (.int v)) = ([w], .error .valueError) := by
  have hw : FitsS 32 (wrapS 32 v) := wrapS_fits .i32 v
  have hne : wrapS 32 v ≠ v := by intro h; rw [h] at hw; exact h32 hw
  have ht : toElem .i32 (.int v) = (wrapS 32 v, none) := by simp [toElem, asLong, h64, Kind.bits]
  refine ⟨wrapS 32 v, hne, hw, ?_, ?_, ?_, ?_, ?_⟩
  · simp [step, contains, ht, findFrom]
  · simp [step, count, ht]
  · simp [step, remove, ht, findFrom]
  · simp [Spec.step, Spec.asInt?, Ne.symm hne]
  · simp [Spec.step, Spec.asInt?, Spec.removeFirst, Spec.firstAt, hne]

example : FitsS 64 (2 ^ 32 + 5) ∧ ¬ FitsS 32 (2 ^ 32 + 5) := by decide

/-- C05 fails for both classes beyond the machine word: `v in l` and `count(v)` raise OverflowError where
Python answers. -/
theorem C05_overflow_negation (cfg : Cfg) (K : Kind) (l : List Int) (v : Int) (h64 : ¬ FitsS 64 v) :
    step cfg K l (.contains (.int v)) = .exc l .overflowError ∧
    step cfg K l (.count (.int v)) = .exc l .overflowError ∧
    ∃ r, Spec.step K.bits l (.contains (.int v)) = (l, .ok r) ∧
    ∃ r, Spec.step K.bits l (.count (.int v)) = (l, .ok r) := by
  have ht : toElem K (.int v) = (-1, some .overflowError) := by
    simp [toElem, asLong, h64, wrapS_neg_one]
  exact ⟨by simp [step, contains, ht], by simp [step, count, ht], _, rfl, _, rfl⟩

example : ¬ FitsS 64 (2 ^ 80) := by decide

/-! ## C08: failing calls change nothing -/

/-- The calls C08 speaks about that meet it: item assignment, append, insert, remove, pop, resize. -/
def C08_op : Op → Prop
  | .append _ | .insert _ _ | .remove _ | .pop _ | .resize _ | .set (.idx _) _ => True
  | _ => False

/-- C08 without slice assignment: whenever the call raises, for whatever reason, the contents are those
before the call. -/
theorem C08_unchanged_partial (cfg : Cfg) (K : Kind) (l l' : List Int) (op : Op) (e : Exc) (hop : C08_op op)
    (h : step cfg K l op = .exc l' e) : l' = l := by
  cases op with
  | append a =>
    simp only [step, append] at h
    split at h <;> cases h; rfl
  | insert i a =>
    simp only [step, ArrayList.insert] at h
    split at h
    · cases h; rfl
    · cases h; rfl
    · rcases ite_or h with h | h <;> cases h
  | remove a =>
    simp only [step, remove] at h
    split at h
    · cases h; rfl
    · split at h <;> cases h; rfl
  | pop a =>
    simp only [step, pop] at h
    split at h
    · cases h; rfl
    · split at h
      · cases h
      · split at h
        · cases h; rfl
        · rcases ite_or h with h | h
          · cases h; rfl
          · split at h <;> cases h
  | resize a =>
    simp only [step, resize] at h
    split at h
    · split at h <;> cases h; rfl
    · cases h; rfl
  | set k v =>
    cases k with
    | slice s => exact absurd hop id
    | idx a =>
      have key : ∀ i x, setItem K l i x = .exc l' e → l' = l := by
        intro i x hx
        rw [setItem_eq] at hx
        split at hx
        · cases hx; rfl
        · split at hx
          · cases hx
          · split at hx <;> cases hx; rfl
      simp only [step, assSubscript] at h
      split at h
      · cases h
      · split at h
        · cases h; rfl
        · next heq =>
          cases v with
          | inl x => exact key _ _ h
          | inr x => exact key _ _ h
      · next heq => cases heq
  | _ => exact absurd hop id

example : step ⟨.ge313, false, true, true, true⟩ .i32 [1, 2] (.set (.idx (.int 0)) (.inl .other)) =
    .exc [1, 2] .typeError := by decide
example : step ⟨.ge313, false, true, true, true⟩ .i32 [1, 2] (.insert (.int 0) (.int (2 ^ 40))) =
    .exc [1, 2] .overflowError := by decide

/-- C08 fails for slice assignment on both classes: `l[0:1] = [x]` with an unconvertible `x` raises and
leaves -1 in place of the first element, for every non-empty list. -/
theorem C08_slice_negation (cfg : Cfg) (K : Kind) (x : Int) (xs : List Int) :
    step cfg K (x :: xs) (.set (.slice ⟨some (.int 0), some (.int 1), none⟩) (.inr (.list [.other]))) =
      .exc (-1 :: xs) .typeError := by
  have hu : sliceUnpack ⟨some (.int 0), some (.int 1), none⟩ = .ok (0, 1, 1) := rfl
  have ha : adjustIndices ((x :: xs).length : Int) 0 1 1 = (0, 1, 1) := by
    have : (1 : Int) ≤ (x :: xs).length := by simp only [List.length_cons]; omega
    unfold adjustIndices
    simp only [show ¬ ((0:Int) < 0) by decide, show ¬ ((1:Int) < 0) by decide, if_false]
    rw [if_neg (show ¬ ((0:Int) ≥ _) by omega)]
    by_cases h1 : (1 : Int) ≥ (x :: xs).length
    · rw [if_pos h1]
      have : ((x :: xs).length : Int) = 1 := by omega
      rw [this]; rfl
    · rw [if_neg h1]; rfl
  have ht : toElem K .other = (-1, some .typeError) := by simp [toElem, asLong, wrapS_neg_one]
  simp only [step, assSubscript, hu, ha]
  simp [Src.isSequence, srcSize, assignLoop, srcItem, ht]

/-! ## C18, C19, C47 -/

/-- C18 (array lists of ints): reverse() reverses, for every length and CPU. The hypothesis is the class
invariant (`C02_invariant`). -/
theorem C18_reverse_int (cfg : Cfg) (K : Kind) (l : List Int) (hl : AllFits K l) :
    step cfg K l .reverse = .ok l.reverse .none :=
  reverse_eq cfg K l hl

example : AllFits .i32 [-1, 2 ^ 31 - 1, 0] := by decide

/-- C19 (array lists): repr is Python's. -/
theorem C19_repr_array (cfg : Cfg) (K : Kind) (l : List Int) :
    step cfg K l .repr = .ok l (.str ("[" ++ String.intercalate ", " (l.map toString) ++ "]")) := by
  rw [step, repr_eq]; rfl

/-- C47: resize keeps the prefix, pads with zeros, rejects negative and unrepresentable sizes. -/
theorem C47_resize (cfg : Cfg) (K : Kind) (l : List Int) (n : Int) :
    (0 ≤ n → FitsS 64 n → ∃ l', step cfg K l (.resize (.int n)) = .ok l' .none ∧ (l'.length : Int) = n ∧
      (∀ i : Nat, (i : Int) < n → i < l.length → l'[i]? = l[i]?) ∧
      (∀ i : Nat, (i : Int) < n → l.length ≤ i → l'[i]? = some 0)) ∧
    (n < 0 ∨ ¬ FitsS 64 n → step cfg K l (.resize (.int n)) = .exc l .valueError) := by
  constructor
  · intro h0 h64
    refine ⟨l.take n.toNat ++ List.replicate (n.toNat - l.length) 0, ?_, ?_, ?_, ?_⟩
    · simp only [step, resize, asSsize, if_pos h64]
      rw [if_neg (by omega)]
    · simp; omega
    · intro i h1 h2
      rw [List.getElem?_append_left (by simp; omega), List.getElem?_take, if_pos (by omega)]
    · intro i h1 h2
      rw [List.getElem?_append_right (by simp; omega), List.getElem?_replicate, if_pos (by simp; omega)]
  · intro h
    simp only [step, resize, asSsize]
    by_cases h64 : FitsS 64 n
    · simp only [if_pos h64]
      rw [if_pos (h.resolve_right (fun h => h h64))]
    · simp only [if_neg h64]
      rw [if_pos (by decide)]

example : (0 : Int) ≤ 7 ∧ FitsS 64 7 := by decide
example : ¬ FitsS 64 (2 ^ 63) := by decide

end Verif.Props
