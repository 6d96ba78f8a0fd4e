import Verif.Lemmas.RefuseInt

/-!
# C53 for IntLinkedList

The array lists of ints are in Props/Limits. Every node of an IntLinkedList is a request of its own, and the machine may
grant or refuse each of them.
-/

namespace Verif.Props

open Verif.Spec (shown Spared IntSparing GrantsNext nodesFor itemsOf history)
open Verif.Refuse.Lnk (Machine)
open Verif.RefuseInt

private def ints (l : List Int) : LState Int := LState.pushAll ⟨[], 0, 0⟩ l

private def cfg0 : Cfg := ⟨.ge313, false, false, false, false⟩

/-- Outside `extend`, `+=`, `*=` and assignment to a slice: on every machine and in every state, a call does what it does with
unlimited memory, or it raises RuntimeError and the list is unchanged, nodes and modification counter included. The full
claim, for all calls, is false of the code: `C53_linked_extend_negation`, `C53_linked_imul_negation`,
`C53_linked_slice_negation`. -/
theorem C53_linked_partial (m : Machine) (cfg : Cfg) (strict : Bool) (s : St) (op : Op) (hop : IntSparing op = true) :
    Spared s.1 (LinkedList.step cfg strict s.1 op) (step m cfg strict s op) :=
  step_spared m cfg strict s op hop

/-- `[1, 2] * 2` on a machine that refuses the third node, and on one that grants four. -/
example : step (fun t => t != 2) cfg0 true (ints [1, 2], 0) (.mul 2) = .exc (ints [1, 2], 3) .runtimeError ∧
    step (fun t => t < 4) cfg0 true (ints [1, 2], 0) (.mul 2) = .ok (ints [1, 2], 4) (.newList [1, 2, 1, 2]) := ⟨rfl, rfl⟩

/-- Histories: after any number of such calls on any machine, the list is the one that the calls which were not refused lead
to with unlimited memory. -/
theorem C53_linked_history_partial (m : Machine) (cfg : Cfg) (strict : Bool) (s s' : St) (calls : List Op)
    (hops : ∀ c ∈ calls, IntSparing c = true) (h : history (step m cfg strict) s calls = some s') :
    ∃ done, done.Sublist calls ∧ history (LinkedList.step cfg strict) s.1 done = some s'.1 :=
  Refuse.history_spared _ _ calls (fun s c hc => step_spared m cfg strict s c (hops c hc)) s s' h

/-- Three appends of which the second is refused. -/
example : ∃ s', history (step (fun t => t != 1) cfg0 true) (ints [], 0)
    [.append (.int 1), .append (.int 2), .append (.int 3)] = some s' ∧ s'.1.vals = [1, 3] := ⟨_, rfl, rfl⟩

/-- A machine that grants the next `nodesFor` requests — one for `append`, one for each item of `extend`, one for each
element of the product — lets every call, refused or not elsewhere, do what it does with unlimited memory. -/
theorem C53_linked_enough (m : Machine) (cfg : Cfg) (strict : Bool) (s : St) (op : Op)
    (h : GrantsNext m s.2 (nodesFor s.1.size op)) :
    shown (step m cfg strict s op) = LinkedList.step cfg strict s.1 op :=
  step_enough cfg strict s op h

example : GrantsNext (fun t => decide (t < 6)) 0 (nodesFor (ints [1, 2, 3]).size (.mul 2)) := by
  intro i _ h; exact decide_eq_true (by simpa [nodesFor, ints, LState.size, LState.pushAll, LState.push] using h)

/-- The bound is exact for `*`: one node fewer and it raises. -/
theorem C53_linked_mul_exact (m : Machine) (cfg : Cfg) (strict : Bool) (s : St) (n : Int) (i : Nat)
    (h1 : s.2 ≤ i) (h2 : i < s.2 + nodesFor s.1.size (.mul n)) (h : m i = false) :
    shown (step m cfg strict s (.mul n)) = .exc s.1 .runtimeError := by
  have hr := nodes_refused h1 h2 h
  show shown (guarded m (s.1.size * n.toNat) s (LinkedList.mul s.1 n)) = _
  have : ∃ l, LinkedList.mul s.1 n = .ok s.1 (.newList l) := by
    unfold LinkedList.mul
    dsimp only
    split
    · exact ⟨_, rfl⟩
    · split <;> exact ⟨_, rfl⟩
  obtain ⟨l, e⟩ := this
  rw [e]
  unfold guarded
  dsimp only
  rcases e2 : Refuse.Lnk.nodes m (s.1.size * n.toNat) s.2 with ⟨t, b⟩
  change (Refuse.Lnk.nodes m (s.1.size * n.toNat) s.2).2 = false at hr
  rw [e2] at hr
  dsimp only at hr
  subst hr
  rfl

example : (0 : Nat) ≤ 5 ∧ 5 < 0 + nodesFor (ints [1, 2, 3]).size (.mul 2) := ⟨by decide, by decide⟩

/-- The constructor: what it does with unlimited memory, or RuntimeError (there is no list then). -/
theorem C53_linked_create (m : Machine) (t : Nat) (arg : Option (Int ⊕ Src)) :
    shown (init m t arg) = LinkedList.init arg ∨ ∃ s, shown (init m t arg) = .exc s .runtimeError := by
  unfold init
  dsimp only
  split
  · exact .inl (Refuse.shown_lift _ _)
  · exact .inr ⟨_, rfl⟩

/-- With a node for each item it is the former. -/
theorem C53_linked_create_enough (m : Machine) (t : Nat) (src : Src) (h : GrantsNext m t (itemsOf 0 src)) :
    shown (init m t (some (.inr src))) = LinkedList.init (some (.inr src)) := by
  unfold init
  dsimp only
  rw [nodes_granted (k := _) (grants_mono h ?_)]
  · exact Refuse.shown_lift _ _
  · cases src <;> first | exact Nat.zero_le _ | exact Nat.le_refl _ | exact initPushes_le _

example : GrantsNext (fun t => decide (t < 2)) 0 (itemsOf 0 (.list [.int 5, .int 6])) := by
  intro i _ h; exact decide_eq_true (by simpa [itemsOf] using h)
example : shown (init (fun t => decide (t < 1)) 0 (some (.inr (.list [.int 5, .int 6])))) = .exc ⟨[], 0, 0⟩ .runtimeError := rfl

/-- `from_range`, where it would succeed with unlimited memory: it succeeds with the same elements if every node is granted,
and raises RuntimeError at the first that is not. -/
theorem C53_linked_range (m : Machine) (t : Nat) (a1 : Arg) (a2 a3 : Option Arg) (l : List Int)
    (hl : LinkedList.fromRange a1 a2 a3 = .ok () l) :
    (GrantsNext m t l.length → fromRange m t a1 a2 a3 = .ok (t + l.length) l) ∧
    ∀ k, k < l.length → GrantsNext m t k → m (t + k) = false → fromRange m t a1 a2 a3 = .exc (t + k + 1) .runtimeError := by
  unfold LinkedList.fromRange ArrayList.fromRange at hl
  unfold fromRange
  revert hl
  rcases ArrayList.evalRange a1 a2 a3 with e | ⟨start, stop, step⟩
  · nofun
  · dsimp only
    rcases ArrayList.rangeCount start stop step with u | _ | n
    · nofun
    · intro hl
      cases hl
      exact ⟨fun _ => rfl, fun k hk => absurd hk (Nat.not_lt_zero _)⟩
    · dsimp only
      intro hl
      have hq := rangeLoop_ok m step n.toNat start t
      rcases hr : ArrayList.rangeLoop .i32 step n.toNat start with u | l'
      · rw [hr] at hl; cases hl
      · rw [hr] at hl
        cases hl
        obtain ⟨a, b⟩ := hq l hr
        refine ⟨fun h => ?_, fun k hk h hm => ?_⟩
        · rw [a h]
        · rw [b k hk h hm]

/-- `from_range` in general: what it does with unlimited memory, or RuntimeError at a node that was refused; the latter can
come before an overflow that ends the process with more memory. -/
theorem C53_linked_range_any (m : Machine) (t : Nat) (a1 : Arg) (a2 a3 : Option Arg) :
    (fromRange m t a1 a2 a3).mapState (fun _ => ()) = LinkedList.fromRange a1 a2 a3 ∨
    ∃ k, GrantsNext m t k ∧ m (t + k) = false ∧ fromRange m t a1 a2 a3 = .exc (t + k + 1) .runtimeError := by
  unfold LinkedList.fromRange ArrayList.fromRange fromRange
  rcases ArrayList.evalRange a1 a2 a3 with e | ⟨start, stop, step⟩
  · exact .inl rfl
  · dsimp only
    rcases ArrayList.rangeCount start stop step with u | _ | n
    · exact .inl rfl
    · exact .inl rfl
    · dsimp only
      rcases rangeLoop_any m step n.toNat start t with ⟨u, e1, e2⟩ | ⟨l, e1, e2⟩ | ⟨k, h1, h2, e⟩
      · rw [e1, e2]; exact .inl rfl
      · rw [e1, e2]; exact .inl rfl
      · rw [e]; exact .inr ⟨k, h1, h2, rfl⟩

/-- A range that overflows after its only element, on a machine without memory and on one with. -/
example : fromRange (fun _ => false) 0 (.int (2 ^ 63 - 4)) (some (.int (2 ^ 63 - 2))) (some (.int 5)) = .exc 1 .runtimeError ∧
    fromRange (fun _ => true) 0 (.int (2 ^ 63 - 4)) (some (.int (2 ^ 63 - 2))) (some (.int 5)) = .ub .signedOverflow :=
  ⟨by decide, by decide⟩

example : LinkedList.fromRange (.int 3) none none = .ok () [0, 1, 2] := rfl
example : fromRange (fun t => decide (t < 2)) 0 (.int 3) none none = .exc 3 .runtimeError ∧
    fromRange (fun t => decide (t < 3)) 0 (.int 3) none none = .ok 3 [0, 1, 2] := ⟨rfl, rfl⟩

/-! ### Negations -/

/-- `extend` and `+=` end the process when the machine refuses a node: for every list, every IntLinkedList as operand and
whichever node is refused. -/
theorem C53_linked_extend_negation (m : Machine) (cfg : Cfg) (strict : Bool) (s : St) (v : List Int) (i : Nat)
    (h1 : s.2 ≤ i) (h2 : i < s.2 + v.length) (h : m i = false) :
    step m cfg strict s (.extend (.same v)) = .ub .terminate ∧ step m cfg strict s (.iadd (.same v)) = .ub .terminate := by
  have hr := nodes_refused h1 h2 h
  constructor
  · obtain ⟨u, e1, e2⟩ := Refuse.orDie_refused (out := LinkedList.extendWith strict true s.1 (.same v) .none) hr
    rw [e2 (fun u => nofun)] at e1
    exact e1
  · obtain ⟨u, e1, e2⟩ := Refuse.orDie_refused (out := LinkedList.extendWith strict false s.1 (.same v) .self) hr
    rw [e2 (fun u => nofun)] at e1
    exact e1

/-- With a Python list of ints: the items before the first that cannot be converted each need a node, and so does that item,
because it is stored before its error is noticed; any of these nodes refused ends the process. -/
theorem C53_linked_extend_items_negation (m : Machine) (cfg : Cfg) (strict : Bool) (s : St) (good rest : List Arg) (bad : Arg)
    (i : Nat) (hg : ∀ a ∈ good, Spec.IsElem 64 a = true) (hb : Spec.IsElem 64 bad = false) (h1 : s.2 ≤ i)
    (h2 : i < s.2 + (good.length + 1)) (h : m i = false) :
    step m cfg strict s (.extend (.list (good ++ bad :: rest))) = .ub .terminate ∧
    step m cfg strict s (.iadd (.list (good ++ bad :: rest))) = .ub .terminate := by
  have hp : pushes (good ++ bad :: rest) = good.length + 1 := by
    clear h2
    induction good with
    | nil =>
      have : ∃ e, (toElem .i32 bad).2 = some e := by
        unfold toElem asLong
        cases bad with
        | other => exact ⟨_, rfl⟩
        | int v | index v =>
          have : ¬ FitsS 64 v := of_decide_eq_false hb
          simp only [if_neg this]
          exact ⟨_, rfl⟩
      obtain ⟨e, he⟩ := this
      simp only [List.nil_append, pushes, he, List.length_nil]
    | cons a as ih =>
      have ha := hg a (List.mem_cons_self ..)
      have : (toElem .i32 a).2 = none := by
        unfold toElem asLong
        cases a with
        | other => cases ha
        | int v | index v =>
          have : FitsS 64 v := of_decide_eq_true ha
          simp only [if_pos this]
      simp only [List.cons_append, pushes, this, List.length_cons]
      rw [ih (fun b hb => hg b (List.mem_cons_of_mem _ hb))]
  have hr : (Refuse.Lnk.nodes m (asked s.1 (.list (good ++ bad :: rest))) s.2).2 = false := by
    show (Refuse.Lnk.nodes m (pushes (good ++ bad :: rest)) s.2).2 = false
    rw [hp]
    exact nodes_refused h1 h2 h
  have hu : ∀ bump r u, LinkedList.extendWith strict bump s.1 (.list (good ++ bad :: rest)) r ≠ .ub u := by
    intro bump r u
    unfold LinkedList.extendWith LinkedList.pushItems
    dsimp only
    split <;> exact nofun
  constructor
  · obtain ⟨u, e1, e2⟩ := Refuse.orDie_refused
      (out := LinkedList.extendWith strict true s.1 (.list (good ++ bad :: rest)) .none) hr
    rw [e2 (fun u => hu _ _ u)] at e1
    exact e1
  · obtain ⟨u, e1, e2⟩ := Refuse.orDie_refused
      (out := LinkedList.extendWith strict false s.1 (.list (good ++ bad :: rest)) .self) hr
    rw [e2 (fun u => hu _ _ u)] at e1
    exact e1

/-- The same with a Python list of ints, at the second item. -/
example : step (fun t => t != 1) cfg0 true (ints [7], 0) (.extend (.list [.int 1, .int 2])) = .ub .terminate := rfl

/-- `l *= n` keeps the rounds it had done before a refusal, and each round doubles the list: refused in round `j + 1`, a list
is left with `2 ^ j` copies of itself, and RuntimeError. -/
theorem C53_linked_imul_negation (m : Machine) (cfg : Cfg) (s : St) (n : Int) (j i : Nat) (hj : j + 1 < n.toNat)
    (hg : GrantsNext m s.2 (s.1.size * (2 ^ j - 1)))
    (h1 : s.2 + s.1.size * (2 ^ j - 1) ≤ i) (h2 : i < s.2 + s.1.size * (2 ^ (j + 1) - 1)) (h : m i = false) :
    ∃ s', step m cfg false s (.imul n) = .exc s' .runtimeError ∧
      s'.1.vals = (List.replicate (2 ^ j) s.1.vals).flatten := by
  have hd := imulLoop_refused (j := j) (k := n.toNat - 1) (by omega) hg h1 h2 h
  obtain ⟨s', e, hv⟩ := hd
  refine ⟨s', ?_, hv⟩
  show imul m false s n = _
  unfold imul
  dsimp only
  rw [if_neg (by omega), if_neg (by omega), e]

/-- `[1, 2] *= 4` with the seventh node refused: four copies and an exception. -/
example : ∃ s', step (fun t => t != 6) cfg0 false (ints [1, 2], 0) (.imul 4) = .exc s' .runtimeError ∧
    s'.1.vals = [1, 2, 1, 2, 1, 2, 1, 2] := ⟨_, rfl, rfl⟩

/-- Assignment to a slice has overwritten and inserted elements when the refusal comes: `l[0:1] = [7, 8, 9]`. -/
theorem C53_linked_slice_negation : ∃ (m : Machine) (s : St) (sl : SliceArg) (src : Src) (s' : St),
    step m cfg0 true s (.set (.slice sl) (.inr src)) = .exc s' .runtimeError ∧ s.1.vals = [1, 2] ∧ s'.1.vals = [7, 8, 2] :=
  ⟨fun t => t != 1, (ints [1, 2], 0), ⟨some (.int 0), some (.int 1), none⟩, .list [.int 7, .int 8, .int 9], _, rfl, rfl, rfl⟩

end Verif.Props
