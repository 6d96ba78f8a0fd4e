import Verif.Props.IntValues
import Verif.Lemmas.LinkedSession

/-!
# C01, C02, C08, C10, C11, C12, C13, C19, C49: the IntLinkedList parts

`view` forgets node identities and the modification counter, so `view (step …)` shows contents and result.
-/

namespace Verif.Props

open Verif LinkedList

/-! ## C01: stored integers are read back -/

/-- C01 for IntLinkedList, for elements the boxing handles (`BoxOk`): item access, `pop()`, `to_list()` and slices
return the stored integers as ordinary Python ints. Missing: the other elements (`C01_linked_negation`) and
`pop(i)` (`C25_pop_index_negation`). -/
theorem C01_linked_read_partial (cfg : Cfg) (strict : Bool) (s : LState Int) (hl : AllFits .i32 s.vals)
    (hb : ∀ v ∈ s.vals, BoxOk cfg .i32 v) (hn : (s.vals.length : Int) ≤ ssizeMax) :
    (∀ (p : Nat) (h : p < s.vals.length),
      view (step cfg strict s (.get (.idx (.int p)))) = .ok s.vals (.int (canon s.vals[p]))) ∧
    (∀ h : s.vals ≠ [],
      view (step cfg strict s (.pop none)) = .ok s.vals.dropLast (.int (canon (s.vals.getLast h)))) ∧
    view (step cfg strict s .toList) = .ok s.vals (.pylist (s.vals.map canon)) ∧
    (∀ sl i j k, Spec.fields sl = .ok (i, j, k) →
      view (step cfg strict s (.get (.slice sl))) =
        .ok s.vals (.pylist ((Spec.pick s.vals (Spec.positions s.vals.length i j k)).map canon))) := by
  obtain ⟨h1, h2, h3, h4⟩ := C01_read_partial cfg .i32 s.vals hl hb hn
  refine ⟨fun p h => ?_, fun h => ?_, ?_, fun sl i j k h => ?_⟩
  · exact (step_get_view cfg strict s _).trans (h1 p h)
  · rw [← h2 h]; exact pop_view cfg s
  · rw [← h3]; rfl
  · exact (step_get_view cfg strict s _).trans (h4 sl i j k h)

example : ∀ v ∈ (LState.vals (⟨[(0, 7), (1, 2 ^ 30 - 1)], 2, 0⟩ : LState Int)),
    BoxOk ⟨.ge313, false, true, true, true⟩ .i32 v := by
  decide

/-- Negation of C01 from Python 3.12 on, as for IntArrayList (`C01_negation`). -/
theorem C01_linked_negation (cfg : Cfg) (strict : Bool) (hpy : cfg.py ≠ .le311) (v : Int) (hv : FitsS 32 v)
    (id fresh m : Nat) :
    ∃ b, view (step cfg strict ⟨[(id, v)], fresh, m⟩ (.get (.idx (.int 0)))) = .ok [v] (.int b) ∧
      (v < 0 → b.value = -(2 ^ 32 + v) ∧ (v ≠ -(2 ^ 31) → b.value ≠ v) ∧ ¬ b.Normal) ∧
      (v = 0 ∨ 2 ^ 30 ≤ v → b.value = v ∧ ¬ b.Normal) := by
  obtain ⟨b, hb, hr⟩ := C01_negation cfg hpy v hv
  exact ⟨b, (step_get_view cfg strict ⟨[(id, v)], fresh, m⟩ _).trans hb, hr⟩

/-! ## C02: nothing outside the element type is stored -/

/-- Class invariant: whatever the call and its arguments, if the process survives the call all elements are 32-bit
integers. -/
theorem C02_linked_invariant (cfg : Cfg) (strict : Bool) (s s' : LState Int) (op : Op) (hl : AllFits .i32 s.vals)
    (hsame : ∀ v, op = .extend (.same v) ∨ op = .iadd (.same v) → AllFits .i32 v)
    (h : (step cfg strict s op).state? = some s') : AllFits .i32 s'.vals :=
  step_fits cfg strict s op hl hsame s' h

/-- … hence after any history. -/
theorem C02_linked_invariant_history (cfg : Cfg) (strict : Bool) (ops : List Op) (s : LState Int)
    (hl : AllFits .i32 s.vals)
    (hsame : ∀ op ∈ ops, ∀ v, op = .extend (.same v) ∨ op = .iadd (.same v) → AllFits .i32 v) :
    ∀ o ∈ run cfg strict s ops, ∀ s', o.state? = some s' → AllFits .i32 s'.vals := by
  induction ops generalizing s with
  | nil => intro o ho; simp [run] at ho
  | cons op ops ih =>
    intro o ho s' hs'
    rw [run] at ho
    rcases List.mem_cons.1 ho with rfl | ho
    · exact C02_linked_invariant cfg strict s s' op hl (hsame op (by simp)) hs'
    · cases hs : (step cfg strict s op).state? with
      | none => rw [hs] at ho; simp at ho
      | some s2 =>
        rw [hs] at ho
        exact ih s2 (C02_linked_invariant cfg strict s s2 op hl (hsame op (by simp)) hs)
          (fun op' hop' => hsame op' (by simp [hop'])) o ho s' hs'

example : (step ⟨.ge313, false, true, true, true⟩ true ⟨[(0, 1)], 1, 0⟩ (.append (.int (2 ^ 32 + 5)))).state? =
    some ⟨[(0, 1), (1, 5)], 2, 1⟩ := by
  decide

/-- Negation of C02: an integer outside 32 bits (but inside a C long) is silently truncated. -/
theorem C02_linked_truncation_negation (cfg : Cfg) (strict : Bool) (s : LState Int) (v : Int) (h64 : FitsS 64 v)
    (h32 : ¬ FitsS 32 v) :
    ∃ w, w ≠ v ∧ view (step cfg strict s (.append (.int v))) = .ok (s.vals ++ [w]) .none := by
  obtain ⟨w, hw, he⟩ := C02_truncation_negation cfg s.vals v h64 h32
  refine ⟨w, hw, ?_⟩
  have key : toElem .i32 (.int v) = (wrapS 32 v, none) := by
    simp only [toElem, asLong]
    split
    · rfl
    · contradiction
  simp only [ArrayList.step, ArrayList.append, key] at he
  simp only [step, append, key, view, Out.mapState]
  injection he with he _
  rw [← he]
  show Out.ok (LState.vals (LState.push s (wrapS 32 v))) _ = _
  rw [LState.vals_push]

/-- Negation of C02: an integer beyond a C long leaves −1 in the list (and a pending exception). -/
theorem C02_linked_overflow_negation (cfg : Cfg) (strict : Bool) (s : LState Int) (v : Int) (h64 : ¬ FitsS 64 v) :
    view (step cfg strict s (.append (.int v))) = .pending (s.vals ++ [-1]) .none .overflowError := by
  have key : toElem .i32 (.int v) = (-1, some .overflowError) := by
    simp only [toElem, asLong]
    split
    · contradiction
    · rfl
  simp only [step, append, key, view, Out.mapState]
  show Out.pending (LState.vals (LState.push s (-1))) _ _ = _
  rw [LState.vals_push]

/-! ## C10, C11, C12, C13: arithmetic -/

/-- C10 with a list on the right. -/
theorem C10_linked_list_partial (cfg : Cfg) (strict : Bool) (s : LState Int) (xs : List Arg) :
    ∃ ps, step cfg strict s .toList = .ok s (.pylist ps) ∧
      step cfg strict s (.add (.list xs)) = .ok s (.pyconcat ps xs) :=
  ⟨_, rfl, rfl⟩

/-- Negation of C10: two IntLinkedLists cannot be added. -/
theorem C10_linked_same_negation (cfg : Cfg) (strict : Bool) (s : LState Int) (v : List Int) :
    step cfg strict s (.add (.same v)) = .exc s .memoryError ∧
    step cfg strict s (.add .self) = .exc s .memoryError ∧
    Spec.step 32 s.vals (.add (.same v)) = (s.vals, .ok (.list (s.vals ++ v))) :=
  ⟨rfl, rfl, rfl⟩

/-- C11: `l * n` and `n * l` are `n` concatenated copies, in full. -/
theorem C11_linked_mul (cfg : Cfg) (strict : Bool) (s : LState Int) (n : Int) :
    step cfg strict s (.mul n) = .ok s (.newList (List.replicate n.toNat s.vals).flatten) ∧
    (FitsS 64 n → ∀ a, a = .int n ∨ a = .index n →
      step cfg strict s (.rmul a) = .ok s (.newList (List.replicate n.toNat s.vals).flatten)) := by
  have h : step cfg strict s (.mul n) = .ok s (.newList (List.replicate n.toNat s.vals).flatten) := mul_eq s n
  refine ⟨h, fun hn a ha => ?_⟩
  have e : asLong a = (n, none) := by rcases ha with rfl | rfl <;> exact if_pos hn
  rw [← h]
  simp only [step, rmul, e]

example : step ⟨.ge313, false, true, true, true⟩ true ⟨[(0, 1), (1, 2)], 2, 0⟩ (.mul 2) =
    .ok ⟨[(0, 1), (1, 2)], 2, 0⟩ (.newList [1, 2, 1, 2]) := by
  decide

/-- C12 for `n ≤ 1`. Missing: `n ≥ 2`. -/
theorem C12_linked_imul_partial (cfg : Cfg) (strict : Bool) (s : LState Int) (n : Int) (h : n ≤ 1) :
    view (step cfg strict s (.imul n)) = .ok (List.replicate n.toNat s.vals).flatten .self :=
  imul_small strict s n h

/-- Negation of C12: for `n ≥ 2` the call inserts a range of a list into that list, undefined in C++ … -/
theorem C12_linked_imul_negation (cfg : Cfg) (s : LState Int) (n : Int) (h : 2 ≤ n) :
    step cfg true s (.imul n) = .ub .badIterator := by
  have h1 : ¬ n < 0 := by omega
  have h2 : ¬ n = 0 := by omega
  obtain ⟨k, hk⟩ : ∃ k, n.toNat - 1 = k + 1 := ⟨n.toNat - 2, by omega⟩
  simp only [step, imul, h1, h2, if_false, hk, imulLoop, if_true]

/-- … and where the library makes it work (libstdc++), each round doubles the list: `l *= n` leaves `2 ^ (n - 1)`
copies, the right number exactly for `n = 2`. -/
theorem C12_linked_doubling (cfg : Cfg) (s : LState Int) (n : Int) (h : 1 ≤ n) :
    view (step cfg false s (.imul n)) = .ok (List.replicate (2 ^ (n.toNat - 1)) s.vals).flatten .self := by
  have h1 : ¬ n < 0 := by omega
  have h2 : ¬ n = 0 := by omega
  obtain ⟨s', hs, hv⟩ := imulLoop_double (n.toNat - 1) s
  simp only [step, imul, h1, h2, if_false, hs, view, Out.mapState, hv]

theorem C12_linked_doubling_negation (cfg : Cfg) (s : LState Int) (n : Int) (h : 3 ≤ n) (hne : s.vals ≠ []) :
    view (step cfg false s (.imul n)) ≠ .ok (List.replicate n.toNat s.vals).flatten .self := by
  rw [C12_linked_doubling cfg s n (by omega)]
  intro he
  injection he with he _
  have hl := congrArg List.length he
  simp only [List.length_flatten, List.map_replicate, List.sum_replicate_nat] at hl
  have hpos : 0 < s.vals.length := List.length_pos_iff.2 hne
  have hq := Nat.eq_of_mul_eq_mul_right hpos hl
  obtain ⟨k, hk⟩ : ∃ k, n.toNat = k + 3 := ⟨n.toNat - 3, by omega⟩
  rw [hk] at hq
  have : k + 3 < 2 ^ (k + 2) := by
    clear hq hk hl he
    induction k with
    | zero => decide
    | succ k ih => rw [Nat.pow_succ]; omega
  have e : k + 3 - 1 = k + 2 := by omega
  rw [e] at hq
  omega

/-- C13: `l += other` for an iterable of good elements appends exactly them and gives the same object. Missing: a
same-class operand (`C13_linked_same_negation`). -/
theorem C13_linked_iadd_partial (cfg : Cfg) (strict : Bool) (s : LState Int) (src : Src) (xs : List Arg)
    (hs : src = .list xs ∨ src = .tuple xs ∨ src = .seq xs ∨ src = .seqNoLen xs ∨ src = .iter xs none)
    (hx : ∀ a ∈ xs, Spec.IsElem 32 a = true) :
    view (step cfg strict s (.iadd src)) = .ok (s.vals ++ xs.map Spec.argVal) .self := by
  have := pushItems_good false s xs none .self hx
  rcases hs with rfl | rfl | rfl | rfl | rfl <;> exact this

example : ∀ a ∈ [Arg.int 4, .index (-9)], Spec.IsElem 32 a = true := by decide

/-- Negation of C13: with a same-class operand the elements are appended, but the result, which Python binds to the
variable, is None. -/
theorem C13_linked_same_negation (cfg : Cfg) (strict : Bool) (s : LState Int) (v : List Int) :
    view (step cfg strict s (.iadd (.same v))) = .ok (s.vals ++ v) .none := by
  simp only [step, extendWith, view, Out.mapState]
  show Out.ok (LState.vals (LState.pushAll s v)) _ = _
  rw [LState.vals_pushAll]

/-! ## C08: failing calls change nothing -/

/-- Negation of C08: a failing `append` or `l[i] = x` has changed the list (and reports success with a pending
exception). -/
theorem C08_linked_negation (cfg : Cfg) (strict : Bool) (s : LState Int) :
    view (step cfg strict s (.append .other)) = .pending (s.vals ++ [-1]) .none .typeError ∧
    view (step cfg strict s (.extend (.list [.other]))) = .exc (s.vals ++ [-1]) .typeError := by
  have e : toElem .i32 .other = (-1, some .typeError) := rfl
  constructor
  · simp only [step, append, e, view, Out.mapState]
    show Out.pending (LState.vals (LState.push s (-1))) _ _ = _
    rw [LState.vals_push]
  · simp only [step, extendWith, pushItems, pushLoop, e, view, Out.mapState]
    show Out.exc (LState.vals (LState.push s (-1))) _ = _
    rw [LState.vals_push]

/-! ## C19: repr -/

/-- C19: `repr(l)` is `[`, the decimal numerals of the elements separated by `, `, `]`. -/
theorem C19_linked_repr (cfg : Cfg) (strict : Bool) (s : LState Int) :
    view (step cfg strict s .repr) = .ok s.vals (.str ("[" ++ String.intercalate ", " (s.vals.map toString) ++ "]")) := by
  have h := repr_view s
  rw [show view (step cfg strict s .repr) = view (LinkedList.repr s) from rfl, h, ArrayList.repr_eq]
  rfl

/-! ## C49: constructor -/

/-- C49: the constructor applied to an iterable of good elements holds exactly them. -/
theorem C49_linked_init (s : Src) (xs : List Arg) (hs : Spec.items [] s = .ok (xs, none)) (hself : s ≠ .self)
    (hx : ∀ a ∈ xs, Spec.IsElem 32 a = true) :
    ∃ t, LinkedList.init (some (.inr s)) = .ok t () ∧ t.vals = xs.map Spec.argVal ∧ t.ids.Nodup := by
  have h := C49_init .i32 s xs hs hself hx
  refine ⟨_, by simp only [LinkedList.init, h, Out.mapState]; rfl, ?_, ?_⟩
  · rw [LState.vals_pushAll]; rfl
  · exact (LState.wf_pushAll (LState.wf_empty 0 0) _).1

example : LinkedList.init (some (.inr (.list [.int 3, .int (-4)]))) = .ok ⟨[(0, 3), (1, -4)], 2, 0⟩ () := by decide

/-- … and anything that is not an iterable of integers is refused with an exception. -/
theorem C49_linked_init_refused (s : Src) (xs : List Arg) (hs : Spec.items [] s = .ok (xs, none))
    (hsame : ∀ v, s ≠ .same v) (hself : s ≠ .self) (hx : ∀ a ∈ xs, ArrayList.NoTrunc .i32 a) (a : Arg) (ha : a ∈ xs)
    (hbad : Spec.IsElem 32 a = false) : ∃ t, LinkedList.init (some (.inr s)) = .exc t .runtimeError := by
  obtain ⟨l, h⟩ := C49_init_refused .i32 s xs hs hsame hself hx a ha hbad
  exact ⟨_, by simp only [LinkedList.init, h, Out.mapState]; rfl⟩

end Verif.Props
