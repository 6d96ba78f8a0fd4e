import Verif.Lemmas.ForeignLinked

/-!
# C55 for IntLinkedList

Arguments, iterators and sequences of user classes run Python code in the middle of a call, as in Props/Foreign; here the
code may also remove the very node a method holds an iterator to. What is expected is again `Foreign.after`
(Spec/Foreign.lean): the code of the arguments runs, then the call is carried out, as `LinkedList.step` does for plain ints
(C24 says what that is), on the list that the code left.
-/

namespace Verif.Props

open Verif.LinkedList (S step boolOut)
open Verif.Foreign (after afterOpt fine unlessFits zeroStep pour conv conv_of)
open Verif.ForeignLinked

/-- `remove` and `count`, whatever the code of the argument does to the list. -/
theorem C55_linked_value_arguments (cfg : Cfg) (strict : Bool) (s : S) (x : Live) :
    ForeignLinked.remove s x = after x fine s (fun s v => step cfg strict s (.remove (.index v))) ∧
    ForeignLinked.count s x = after x fine s (fun s v => step cfg strict s (.count (.index v))) := by
  rcases hx : x.run s with ⟨s', e | v⟩
  · simp [ForeignLinked.remove, ForeignLinked.count, after, conv, hx]
  · simp only [ForeignLinked.remove, ForeignLinked.count, after, conv, fine, hx, step, LinkedList.remove, LinkedList.count]
    refine ⟨?_, rfl⟩
    rcases toElem .i32 (.index v) with ⟨w, e⟩
    cases e <;> rfl

/-- `l[i]` and `del l[i]`. -/
theorem C55_linked_index_arguments (cfg : Cfg) (strict : Bool) (s : S) (i : Live) :
    ForeignLinked.get cfg s i = after i fine s (fun s v => step cfg strict s (.get (.idx (.index v)))) ∧
    ForeignLinked.del s i = after i fine s (fun s v => step cfg strict s (.del (.idx (.index v)))) := by
  rcases hx : i.run s with ⟨s', e | v⟩
  · simp [ForeignLinked.get, ForeignLinked.del, after, conv, hx]
  · simp only [ForeignLinked.get, ForeignLinked.del, after, conv, fine, hx, step, LinkedList.subscript,
      LinkedList.assSubscript]
    constructor <;> rcases asSsizeIndex (.index v) with ⟨w, e⟩ <;> cases e <;> rfl

/-- `insert`: the code of the position runs first; a position beyond 64 bits is refused before the code of the value. -/
theorem C55_linked_insert (cfg : Cfg) (strict : Bool) (s : S) (i x : Live) :
    ForeignLinked.insert s i x =
      after i (unlessFits 64 .overflowError) s fun s i => after x fine s fun s v =>
        step cfg strict s (.insert (.index i) (.index v)) := by
  rcases h1 : i.run s with ⟨s1, e | j⟩
  · simp [ForeignLinked.insert, after, conv, h1]
  have hj : parseN (.index j) = if FitsS 64 j then (j, none) else (-1, some .overflowError) := rfl
  have hu : unlessFits 64 .overflowError j = if FitsS 64 j then none else some .overflowError := rfl
  by_cases hf : FitsS 64 j
  · rw [if_pos hf] at hj hu
    rcases h2 : x.run s1 with ⟨s2, e | v⟩
    · simp [ForeignLinked.insert, after, conv, h1, h2, hj, hu]
    · simp only [ForeignLinked.insert, after, conv, fine, h1, h2, hj, hu, step, LinkedList.insert]
      rcases parseI (.index v) with ⟨w, e⟩
      cases e <;> rfl
  · rw [if_neg hf] at hj hu
    simp [ForeignLinked.insert, after, conv, h1, hj, hu]

/-- `index(x, start, stop)`. -/
theorem C55_linked_index (cfg : Cfg) (strict : Bool) (s : S) (x start stop : Live) :
    ForeignLinked.index s x (some start) (some stop) =
      after x (unlessFits 32 .overflowError) s fun s v =>
      after start (unlessFits 64 .overflowError) s fun s i =>
      after stop fine s fun s j => step cfg strict s (.index (.index v) (some (.index i)) (some (.index j))) := by
  rcases h1 : x.run s with ⟨s1, e | v⟩
  · simp [ForeignLinked.index, after, conv, h1]
  have hv : parseI (.index v) = if FitsS 32 v then (v, none) else (-1, some .overflowError) := rfl
  have hu : unlessFits 32 .overflowError v = if FitsS 32 v then none else some .overflowError := rfl
  by_cases hf : FitsS 32 v
  · rw [if_pos hf] at hv hu
    rcases h2 : start.run s1 with ⟨s2, e | j⟩
    · simp [ForeignLinked.index, Foreign.convOr, after, conv, h1, h2, hv, hu]
    have hj : parseN (.index j) = if FitsS 64 j then (j, none) else (-1, some .overflowError) := rfl
    have hw : unlessFits 64 .overflowError j = if FitsS 64 j then none else some .overflowError := rfl
    by_cases hg : FitsS 64 j
    · rw [if_pos hg] at hj hw
      rcases h3 : stop.run s2 with ⟨s3, e | m⟩
      · simp [ForeignLinked.index, Foreign.convOr, after, conv, h1, h2, h3, hv, hu, hj, hw]
      · simp only [ForeignLinked.index, Foreign.convOr, after, conv, fine, h1, h2, h3, hv, hu, hj, hw, step, LinkedList.index]
        rcases parseN (.index m) with ⟨w, e⟩
        cases e <;> rfl
    · rw [if_neg hg] at hj hw
      simp [ForeignLinked.index, Foreign.convOr, after, conv, h1, h2, hv, hu, hj, hw]
  · rw [if_neg hf] at hv hu
    simp [ForeignLinked.index, after, conv, h1, hv, hu]

/-- `l[i:j:k]`: the code of the step runs first (a step of zero is refused at once), then start, then stop. -/
theorem C55_linked_slice (cfg : Cfg) (strict : Bool) (s : S) (sl : LSlice) :
    ForeignLinked.getSlice cfg s sl =
      afterOpt sl.step zeroStep s fun s c => afterOpt sl.start fine s fun s a => afterOpt sl.stop fine s fun s b =>
        step cfg strict s (.get (.slice ⟨a, b, c⟩)) := by
  have rest : ∀ (s : S) (c : Option Arg),
      (match Foreign.field sl.start s with
        | (s, .error e) => (.exc s e : Out S Ret)
        | (s, .ok a) =>
          match Foreign.field sl.stop s with
          | (s, .error e) => .exc s e
          | (s, .ok b) => step cfg strict s (.get (.slice ⟨a, b, c⟩))) =
      afterOpt sl.start fine s fun s a => afterOpt sl.stop fine s fun s b => step cfg strict s (.get (.slice ⟨a, b, c⟩)) := by
    intro s c
    have hstop : ∀ (s : S) (a : Option Arg),
        (match Foreign.field sl.stop s with
          | (s, .error e) => (.exc s e : Out S Ret)
          | (s, .ok b) => step cfg strict s (.get (.slice ⟨a, b, c⟩))) =
        afterOpt sl.stop fine s fun s b => step cfg strict s (.get (.slice ⟨a, b, c⟩)) := by
      intro s a
      cases sl.stop with
      | none => rfl
      | some x =>
        simp only [Foreign.field, afterOpt, after, fine]
        rcases x.run s with ⟨s', r⟩
        cases r <;> rfl
    cases sl.start with
    | none => exact hstop s none
    | some x =>
      simp only [Foreign.field, afterOpt, after, fine]
      rcases x.run s with ⟨s', r⟩
      cases r with
      | error e => rfl
      | ok v => exact hstop s' (some (.index v))
  have code : ForeignLinked.getSlice cfg s sl =
      match Foreign.field sl.step s with
      | (s, .error e) => (.exc s e : Out S Ret)
      | (s, .ok c) =>
        match sliceStep c with
        | .error e => .exc s e
        | .ok _ =>
          match Foreign.field sl.start s with
          | (s, .error e) => .exc s e
          | (s, .ok a) =>
            match Foreign.field sl.stop s with
            | (s, .error e) => .exc s e
            | (s, .ok b) => step cfg strict s (.get (.slice ⟨a, b, c⟩)) := by
    unfold ForeignLinked.getSlice Foreign.unpack
    rcases Foreign.field sl.step s with ⟨s1, _ | c⟩
    · rfl
    · dsimp only
      rcases sliceStep c with _ | _
      · rfl
      · dsimp only
        rcases Foreign.field sl.start s1 with ⟨s2, _ | a⟩
        · rfl
        · dsimp only
          rcases Foreign.field sl.stop s2 with ⟨s3, _ | b⟩
          · rfl
          · simp only [step, LinkedList.subscript]
            rcases sliceUnpack ⟨a, b, c⟩ with _ | ⟨_, _, _⟩ <;> rfl
  rw [code]
  cases sl.step with
  | none => exact rest s none
  | some x =>
    simp only [Foreign.field, afterOpt, after]
    rcases x.run s with ⟨s', r⟩
    cases r with
    | error e => rfl
    | ok v =>
      dsimp only
      by_cases hv : v = 0
      · rw [(Foreign.sliceStep_index v).1 hv]
        simp only [zeroStep, hv, if_true]
      · obtain ⟨w, hw⟩ := (Foreign.sliceStep_index v).2 hv
        rw [hw]
        simp only [zeroStep, hv, if_false]
        exact rest s' (some (.index v))

/-- `append` when the code answers. Missing: when it raises (`C55_linked_append_negation`). -/
theorem C55_linked_append_partial (cfg : Cfg) (strict : Bool) (s s' : S) (x : Live) (v : Int) (hx : x.run s = (s', .ok v)) :
    ForeignLinked.append s x = after x fine s (fun s v => step cfg strict s (.append (.index v))) := by
  simp only [ForeignLinked.append, after, conv, fine, hx, step, LinkedList.append]
  rcases toElem .i32 (.index v) with ⟨w, e⟩
  cases e <;> rfl

/-- When the code of the argument raises, `append` has a result nevertheless, with the exception still set, and -1 is in the
list. -/
theorem C55_linked_append_negation (s s' : S) (x : Live) (e : Exc) (hx : x.run s = (s', .error e)) :
    ∃ t, ForeignLinked.append s x = .pending t .none e ∧ t.vals = s'.vals ++ [-1] := by
  simp only [ForeignLinked.append, conv, hx]
  exact ⟨_, rfl, by rw [LState.vals_bump, LState.vals_push]⟩

/-- `extend` and `+=` append what the iterator yields, one item after the other, to the list as it is by then, whatever the
iterator and the conversions of the items do to it, as long as the items answer. Missing: items that raise
(`C55_linked_extend_negation`). -/
theorem C55_linked_extend_partial (bump : Bool) (r : Ret) (s : S) (iter : S → S) (f : Feed) (hf : f.Answers) :
    ForeignLinked.extend bump r s iter f =
      (pour (fun s v => .ok (s.push (wrapS 32 v)) r) r (iter s) f).mapState fun s => if bump then s.bump else s := by
  unfold ForeignLinked.extend
  generalize iter s = s0
  induction f generalizing s0 with
  | done g => cases bump <;> rfl
  | fail g e => cases bump <;> rfl
  | item g x k ih =>
    obtain ⟨h1, h2⟩ := hf
    obtain ⟨v, hv, hlo, hhi⟩ := h1 (g s0)
    simp only [ForeignLinked.extendLoop, pour, after, conv, fine]
    rcases hx : x.run (g s0) with ⟨s', r'⟩
    rw [hx] at hv
    dsimp only at hv
    subst hv
    have ht : toElem .i32 (.index v) = (wrapS 32 v, none) := by
      simp only [toElem, asLong, if_pos (show FitsS 64 v from ⟨hlo, hhi⟩)]
      rfl
    simp only [ht]
    exact ih s0 (h2 s0) (s'.push (wrapS 32 v))

/-- An item that raises leaves -1 in the list. -/
theorem C55_linked_extend_negation (bump : Bool) (r : Ret) (s s' : S) (x : Live) (e : Exc) (hx : x.run s = (s', .error e)) :
    ∃ t, ForeignLinked.extend bump r s id (.item id x fun _ => .done id) = .exc t e ∧ t.vals = s'.vals ++ [-1] := by
  simp only [ForeignLinked.extend, ForeignLinked.extendLoop, conv, id, hx]
  exact ⟨_, rfl, by cases bump <;> simp⟩

/-- The same when the iterator has more items: the next one is fetched, whatever it does to the list, and the call raises
what the conversion raised; no further item is stored. -/
theorem C55_linked_extend_stops (bump : Bool) (r : Ret) (s s' : S) (x y : Live) (e : Exc) (g : S → S) (k : S → Feed)
    (hx : x.run s = (s', .error e)) :
    ForeignLinked.extend bump r s id (.item id x fun _ => .item g y k) = .exc (g (s'.push (-1))) e := by
  simp only [ForeignLinked.extend, ForeignLinked.extendLoop, conv, id, hx]

/-- `l[i] = x` stores at the position that `i` had before the code of `x` ran, if the list still has it. Missing: the list
may have been shortened (`C55_linked_setitem_negation`). -/
theorem C55_linked_setitem_partial (s s' : S) (i v : Int) (x : Live) (p : Nat) (hf : FitsS 64 i)
    (hp : p < s.vals.length) (hi : i = p ∨ i = (p : Int) - s.vals.length) (hx : x.run s = (s', .ok v)) (hv : FitsS 64 v)
    (hl : p < s'.vals.length) :
    ∃ t, ForeignLinked.set s (.of i) x = .ok t .none ∧ t.vals = s'.vals.set p (wrapS 32 v) ∧ t.ids = s'.ids := by
  rw [LState.length_vals] at hp hi hl
  have h1 : asSsizeIndex (.index i) = (i, none) := by simp [asSsizeIndex, hf]
  have h2 : toElem .i32 (.index v) = (wrapS 32 v, none) := by simp only [toElem, asLong, if_pos hv]; rfl
  have h3 : (if i < 0 then (s.size : Int) + i else i) = p := by split_ifs <;> omega
  have h4 : ¬ ((p : Int) < 0 ∨ (p : Int) ≥ s.size) := by omega
  have h5 : conv (toElem .i32) x s = (s', (wrapS 32 v, none)) := by simp only [conv, hx, h2]
  have h6 : listAt s'.size p = .ok p := by rw [listAt_eq]; congr 1; omega
  refine ⟨s'.assign p (wrapS 32 v), ?_, LState.vals_assign _ _ _, LState.ids_assign _ _ _⟩
  simp only [ForeignLinked.set, conv_of, h1, h3, h4, if_false, h5, Int.toNat_natCast, h6, hl, if_true]

/-- A value whose `__index__` empties the list makes `l[i] = x` write outside of it, for every valid index of every
list. -/
theorem C55_linked_setitem_negation (s : S) (i v : Int) (hf : FitsS 64 i)
    (hi : -(s.vals.length : Int) ≤ i ∧ i < s.vals.length) :
    ForeignLinked.set s (.of i) (.emptying v) = .ub .badIterator := by
  rw [LState.length_vals] at hi
  have h1 : asSsizeIndex (.index i) = (i, none) := by simp [asSsizeIndex, hf]
  have h3 : ¬ ((if i < 0 then (s.size : Int) + i else i) < 0 ∨ (if i < 0 then (s.size : Int) + i else i) ≥ s.size) := by
    split_ifs <;> omega
  have h5 : conv (toElem .i32) (.emptying v) s = (s.clear, toElem .i32 (.index v)) := rfl
  simp only [ForeignLinked.set, conv_of, h1, h3, if_false, h5, listAt_eq]
  rw [if_neg (by simp [LState.size, LState.clear])]

/-- `l[i] = x` for arbitrary code in `i` and `x`, exactly: it writes outside of the list precisely if `i` is the valid position `p` of
the list as its code left it, and the code of `x` leaves the list with no more than `p` elements, whether it answers or
raises. -/
theorem C55_linked_setitem_exact (s : S) (i x : Live) (u : UB) :
    ForeignLinked.set s i x = .ub u ↔ u = .badIterator ∧
      ∃ (s1 : S) (j : Int) (p : Nat), i.run s = (s1, .ok j) ∧ FitsS 64 j ∧ p < s1.vals.length ∧
        (j = p ∨ j = (p : Int) - s1.vals.length) ∧ (x.run s1).1.vals.length ≤ p := by
  have hcx : ∀ s1 : S, (conv (toElem .i32) x s1).1 = (x.run s1).1 := by
    intro s1
    unfold conv
    rcases x.run s1 with ⟨s2, _ | v⟩ <;> rfl
  simp only [ForeignLinked.set, LState.length_vals]
  rcases hi : i.run s with ⟨s1, e | j⟩
  · have hci : conv asSsizeIndex i s = (s1, (-1, some e)) := by simp only [conv, hi]
    simp [hci]
  · have hci : conv asSsizeIndex i s = (s1, asSsizeIndex (.index j)) := by simp only [conv, hi]
    rw [hci]
    by_cases hj : FitsS 64 j
    · have h1 : asSsizeIndex (.index j) = (j, none) := by simp [asSsizeIndex, hj]
      simp only [h1]
      by_cases hr : (if j < 0 then (s1.size : Int) + j else j) < 0 ∨ (if j < 0 then (s1.size : Int) + j else j) ≥ s1.size
      · simp only [if_pos hr]
        simp only [reduceCtorEq, false_iff, not_and, not_exists]
        rintro - a b p e - hp hq
        cases e
        split_ifs at hr <;> omega
      · simp only [if_neg hr]
        have h2 := hcx s1
        generalize conv (toElem .i32) x s1 = t at h2 ⊢
        obtain ⟨s2, v, e⟩ := t
        simp only at h2
        obtain ⟨p, hp⟩ : ∃ p : Nat, (if j < 0 then (s1.size : Int) + j else j) = p :=
          ⟨(if j < 0 then (s1.size : Int) + j else j).toNat, by omega⟩
        rw [hp] at hr ⊢
        simp only [Int.toNat_natCast, listAt_eq]
        by_cases hl : p < s2.size
        · have hmin : min p s2.size < s2.size := by omega
          simp only [if_pos hmin]
          have hno : ¬ ∃ (s1' : S) (j' : Int) (q : Nat), (s1, (.ok j : Except Exc Int)) = (s1', .ok j') ∧ FitsS 64 j' ∧
              q < s1'.size ∧ (j' = q ∨ j' = (q : Int) - s1'.size) ∧ (x.run s1').1.size ≤ q := by
            rintro ⟨a, b, q, e, -, hq1, hq2, hle⟩
            cases e
            rw [← h2] at hle
            split_ifs at hp <;> omega
          cases e with
          | none => exact ⟨fun h => (nomatch h), fun h => absurd h.2 hno⟩
          | some e => exact ⟨fun h => (nomatch h), fun h => absurd h.2 hno⟩
        · have hmin : ¬ min p s2.size < s2.size := by omega
          simp only [if_neg hmin, Out.ub.injEq]
          constructor
          · rintro rfl
            exact ⟨rfl, s1, j, p, rfl, hj, by omega, by split_ifs at hp <;> omega, by rw [← h2]; omega⟩
          · rintro ⟨rfl, -⟩
            rfl
    · have h1 : ∃ w e, asSsizeIndex (.index j) = (w, some e) := by simp [asSsizeIndex, hj]
      obtain ⟨w, e, h1⟩ := h1
      simp only [h1, reduceCtorEq, false_iff, not_and, not_exists]
      rintro - a b p e hd
      cases e
      exact absurd hd hj

/-- The default of `stop` is out of date, as for the array lists. -/
theorem C55_linked_index_negation : ∃ (s : S) (start : Live) (s' : S), (start.run s).1 = s' ∧ (2 : Int) ∈ s'.vals ∧
    ForeignLinked.index s (.of 2) (some start) none = .exc s' .valueError :=
  ⟨⟨[(0, 1)], 1, 0⟩, ⟨fun s => (s.push 2, .ok 0)⟩, _, rfl, by decide, rfl⟩

/-- Slice assignment of a sequence whose methods remove no node uses only nodes of the list. Missing: code that removes nodes
(`C55_linked_slice_assignment_negation`), and sequences whose `__len__` raises. -/
theorem C55_linked_slice_assignment_partial (s : S) (sl : LSlice) (v : Seq) (hv : v.KeepsNodes)
    (hlen : ∀ s, ∃ m, (v.len s).2 = .ok m) (u : UB) : ForeignLinked.setSlice s sl v ≠ .ub u := by
  unfold ForeignLinked.setSlice
  rcases Foreign.unpack sl s with ⟨s1, _ | ⟨a, b, c⟩⟩
  · simp
  · dsimp only
    by_cases hc : c = 1
    · subst hc
      obtain ⟨h1, h2, h3, h4, h5, h6, h7⟩ := Foreign.adjust_one (n := (s1.size : Int)) (a := a) (b := b) (by omega)
      rcases hadj : adjustIndices (s1.size : Int) a b 1 with ⟨st, sp, n⟩
      rw [hadj] at h1 h2 h3 h4 h5 h6 h7
      obtain ⟨m, hm⟩ := hlen s1
      have hg : _ := (hv.len s1).length_le
      dsimp only at hg h1 h2 h3 h4 h5 h6 h7
      rcases hl : v.len s1 with ⟨s2, r⟩
      rw [hl] at hm hg
      dsimp only at hm hg
      rw [LState.length_ids, LState.length_ids] at hg
      subst hm
      have hf := hv.items s1
      dsimp only
      have hat : listAt s2.size st.toNat = .ok st.toNat := by rw [listAt_eq]; congr 1; omega
      simp only [ForeignLinked.assign, ne_eq, not_true_eq_false, if_false, hat]
      have room : ∀ k r : Nat, ((k + r : Nat) : Int) ≤ n → Room s2 (iterAt s2 st.toNat) (k + r) :=
        fun k r h => room_iterAt (by omega)
      by_cases e1 : (m : Int) = n
      · simp only [e1, if_true]
        rcases assignLoop_safe (n := n.toNat) (r := 0) hf (room _ _ (by omega)) with ⟨s', it', f', h, _⟩ | ⟨t, e, h⟩ <;>
          rw [h] <;> simp [ForeignLinked.forget]
      · simp only [e1, if_false]
        by_cases e2 : (m : Int) < n
        · simp only [e2, if_true, Int.toNat_natCast]
          rcases assignLoop_safe (n := m) (r := (n - m).toNat) hf (room _ _ (by omega)) with
            ⟨s', it', f', h, hr, _⟩ | ⟨t, e, h⟩
          · rw [h]
            exact eraseSome_safe hr none u
          · rw [h]
            simp [ForeignLinked.forget]
        · simp only [e2, if_false]
          rcases assignLoop_safe (n := n.toNat) (r := 0) hf (room _ _ (by omega)) with ⟨s', it', f', h, hr, hf'⟩ | ⟨t, e, h⟩
          · rw [h]
            exact insertLoop_safe hf' hr u
          · rw [h]
            simp [ForeignLinked.forget]
    · rcases v.len s1 with ⟨s2, _ | m⟩ <;> simp [ForeignLinked.assign, hc]

/-- A sequence of ints that leaves the list alone is assigned as a plain sequence is (C24). -/
theorem C55_linked_slice_assignment_plain (cfg : Cfg) (strict : Bool) (s : S) (hw : s.WF) (i j k : Option Int) (vs : List Int) :
    ForeignLinked.setSlice s (.of i j k) (.of vs) =
      step cfg strict s (.set (.slice ⟨i.map .index, j.map .index, k.map .index⟩) (.inr (.seq (vs.map .index)))) := by
  have hat : ∀ t, (vs.map Arg.index)[0 + t]? = vs[t]?.map Arg.index := by intro t; simp
  simp only [ForeignLinked.setSlice, Foreign.unpack_of, step, LinkedList.assSubscript]
  rcases sliceUnpack ⟨i.map .index, j.map .index, k.map .index⟩ with _ | ⟨a, b, c⟩
  · rfl
  · dsimp only
    by_cases hc : c = 1
    · subst hc
      obtain ⟨h1, h2, -, -, -, h6, h7⟩ := Foreign.adjust_one (n := (s.size : Int)) (a := a) (b := b) (by omega)
      rcases hadj : adjustIndices (s.size : Int) a b 1 with ⟨st, sp, n⟩
      rw [hadj] at h1 h2 h6 h7
      dsimp only at h1 h2 h6 h7
      have hl : listAt s.size st.toNat = .ok st.toNat := by rw [listAt_eq]; congr 1; omega
      simp only [Foreign.Seq.of, ForeignLinked.assign, Src.isSequence, ArrayList.srcSize, List.length_map, Bool.not_true,
        Bool.false_eq_true, if_false, ne_eq, not_true_eq_false, hl]
      have hA := fun (n : Nat) (h : st.toNat + 0 + n ≤ s.size) =>
        assignLoop_of (cfg := cfg) (p := st.toNat) (i := 0) (n := n) hw h hat
      simp only [Nat.add_zero] at hA
      by_cases e1 : (vs.length : Int) = n
      · simp only [e1, if_true]
        exact (hA n.toNat (by omega)).1
      · simp only [e1, if_false]
        by_cases e2 : (vs.length : Int) < n
        · simp only [e2, if_true]
          obtain ⟨h3, h4⟩ := hA (vs.length : Int).toNat (by omega)
          rw [← h3]
          have hneg : ¬ ((vs.length : Int) < 0) := by omega
          rcases hal : ForeignLinked.assignLoop (vs.length : Int).toNat s (iterAt s st.toNat) (.of vs) with
            ⟨⟨s', it, f⟩, _⟩ | ⟨⟨s', it, f⟩, e⟩ | ⟨⟨s', it, f⟩, _, e⟩ | u <;> simp only [ForeignLinked.forget]
          obtain ⟨-, rfl, hw', hs'⟩ := h4 s' it f hal
          simp only [ForeignLinked.eraseSome, hneg, if_false]
          rw [place_iterAt hw' (by omega)]
          rfl
        · simp only [e2, if_false]
          obtain ⟨h3, h4⟩ := hA n.toNat (by omega)
          rw [← h3]
          rcases hal : ForeignLinked.assignLoop n.toNat s (iterAt s st.toNat) (.of vs) with
            ⟨⟨s', it, f⟩, _⟩ | ⟨⟨s', it, f⟩, e⟩ | ⟨⟨s', it, f⟩, _, e⟩ | u <;> simp only [ForeignLinked.forget]
          obtain ⟨rfl, rfl, hw', hs'⟩ := h4 s' it f hal
          refine insertLoop_of hw' (by omega) ?_
          intro t
          simp
    · simp [Foreign.Seq.of, ForeignLinked.assign, Src.isSequence, hc]

/-- A sequence whose first `__getitem__` empties the list makes `l[:] = v` write to a freed node, for every list that is not
empty. -/
theorem C55_linked_slice_assignment_negation (s : S) (v : Int) (hl : s.vals ≠ []) (hn : (s.vals.length : Int) ≤ ssizeMax) :
    ForeignLinked.setSlice s (.of none none none) (.emptying s.vals.length v) = .ub .useAfterFree := by
  have hpos : 0 < s.vals.length := List.length_pos_iff.mpr hl
  rw [LState.length_vals] at hn hpos ⊢
  obtain ⟨b, hb⟩ : ∃ b, b = ssizeMax := ⟨_, rfl⟩
  rw [← hb] at hn
  have hadj := Foreign.adjust_whole (n := (s.size : Int)) (by omega) hn
  have hu := Foreign.unpack_whole s
  rw [← hb] at hu
  obtain ⟨id0, hid⟩ : ∃ id, s.ids[0]? = some id :=
    ⟨_, List.getElem?_eq_getElem (by rw [LState.length_ids]; omega)⟩
  obtain ⟨k, hk⟩ : ∃ k, s.size = k + 1 := ⟨s.size - 1, by omega⟩
  simp only [ForeignLinked.setSlice, hu, hadj, Foreign.Seq.emptying, ForeignLinked.assign, ne_eq, not_true_eq_false, if_false,
    if_true, listAt_eq, Int.toNat_zero, Nat.zero_min, Int.toNat_natCast, iterAt, hid]
  rw [hk]
  simp [ForeignLinked.assignLoop, ForeignLinked.forget, ForeignLinked.write, place, LState.clear, LState.ids]

/-- It takes no emptying: removing the node at hand is enough, and inserting before a removed node is no better. -/
theorem C55_linked_slice_del_negation :
    ForeignLinked.setSlice ⟨[(0, 1), (1, 2)], 2, 0⟩ (.of none none none)
      ⟨fun s => (s, .ok 2), fun _ => .item (fun s => s.erase 0) (.of 5) fun _ => .item id (.of 6) fun _ => .done id⟩ =
      .ub .useAfterFree ∧
    ForeignLinked.setSlice ⟨[(0, 1), (1, 2)], 2, 0⟩ (.of (some 0) (some 0) none)
      ⟨fun s => (s, .ok 1), fun _ => .item (fun s => s.erase 0) (.of 5) fun _ => .done id⟩ = .ub .useAfterFree := ⟨rfl, rfl⟩

/-- Comparing with a sequence whose methods remove no node reads only nodes of the list; for `!=` if fetching an item never
fails. Missing: code that removes nodes (`C55_linked_compare_negation`), `!=` with a `__getitem__` that raises
(`C55_linked_ne_negation`). -/
theorem C55_linked_compare_partial (op : CmpOp) (s : S) (v : Seq) (hv : v.KeepsNodes)
    (hne : op = .ne → ∀ s, (v.items s).Endless) (u : UB) : ForeignLinked.compare op s v ≠ .ub u := by
  have hE : ∀ u, ForeignLinked.eq s v ≠ .ub u := by
    intro u
    unfold ForeignLinked.eq
    rcases v.len s with ⟨s', _ | n⟩
    · simp
    · dsimp only
      split_ifs with h
      · simp
      · exact eqLoop_safe (hv.items s) (room_iterAt (by omega)) u
  have hO : ∀ op, ForeignLinked.ord op s v ≠ .ub u := by
    intro op
    unfold ForeignLinked.ord
    rcases v.len s with ⟨s', _ | n⟩
    · simp
    · dsimp only
      split_ifs with h
      · simp
      · exact ordLoop_safe (hv.items s) (room_iterAt (by omega)) u
  have hN : op = .ne → ForeignLinked.ne s v ≠ .ub u := by
    intro ho
    have key : (∃ s' b, ForeignLinked.eq s v = .ok s' (.bool b)) ∨ (∃ s' b e, ForeignLinked.eq s v = .pending s' (.bool b) e) ∨
        ∃ u, ForeignLinked.eq s v = .ub u := by
      unfold ForeignLinked.eq
      rcases v.len s with ⟨s', _ | n⟩
      · exact .inr (.inl ⟨_, _, _, rfl⟩)
      · dsimp only
        split_ifs
        · exact .inl ⟨_, _, rfl⟩
        · exact eqLoop_answers (hne ho s)
    unfold ForeignLinked.ne
    rcases key with ⟨s', b, h⟩ | ⟨s', b, e, h⟩ | ⟨u', h⟩
    · rw [h]; simp
    · rw [h]; simp
    · exact (hE u' h).elim
  cases op with
  | eq => exact hE u
  | ne => exact hN rfl
  | lt => exact hO .lt
  | le => exact hO .le
  | gt => exact hO .gt
  | ge => exact hO .ge

/-- Comparing with a sequence of ints that leaves the list alone is comparing with a plain sequence (C15). -/
theorem C55_linked_compare_plain (cfg : Cfg) (strict : Bool) (op : CmpOp) (s : S) (hw : s.WF) (vs : List Int) :
    ForeignLinked.compare op s (.of vs) = step cfg strict s (.cmp op (.seq (vs.map .index))) := by
  have hmap : (vs.map Arg.index).map (toElem .i32) = vs.map fun v => toElem .i32 (.index v) := by
    rw [List.map_map]; rfl
  have hE : ForeignLinked.eq s (.of vs) = boolOut s (LinkedList.eq cfg s (.seq (vs.map .index))).1
      (LinkedList.eq cfg s (.seq (vs.map .index))).2 := by
    simp only [ForeignLinked.eq, Foreign.Seq.of, LinkedList.eq, LinkedList.cmpItems, List.length_map, hmap]
    by_cases h : vs.length = s.size
    · simp only [h, ne_eq, not_true_eq_false, if_false]
      have := eqLoop_of hw (n := s.size) (i := 0) (vs := vs) h (by rw [LState.length_vals]; omega)
      rw [List.drop_zero] at this
      exact this
    · simp only [ne_eq, h, not_false_eq_true, if_true]
      rfl
  have hO : ∀ op, ForeignLinked.ord op s (.of vs) = LinkedList.ord cfg op s (.seq (vs.map .index)) := by
    intro op
    simp only [ForeignLinked.ord, Foreign.Seq.of, LinkedList.ord, LinkedList.cmpItems, List.length_map, hmap]
    by_cases h : s.size = vs.length
    · simp only [h, ne_eq, not_true_eq_false, if_false]
      rw [ordLoop_of hw rfl (by rw [LState.length_vals]; omega), List.drop_zero]
      rfl
    · simp only [ne_eq, h, not_false_eq_true, if_true]
  have hN : ForeignLinked.ne s (.of vs) = boolOut s (!(LinkedList.eq cfg s (.seq (vs.map .index))).1)
      (LinkedList.eq cfg s (.seq (vs.map .index))).2 := by
    unfold ForeignLinked.ne
    rw [hE]
    rcases LinkedList.eq cfg s (.seq (vs.map .index)) with ⟨b, _ | e⟩ <;> rfl
  cases op with
  | eq => exact hE
  | ne => exact hN
  | lt => exact hO .lt
  | le => exact hO .le
  | gt => exact hO .gt
  | ge => exact hO .ge

/-- A sequence of the same length whose first `__getitem__` empties the list makes every comparison read a freed node. -/
theorem C55_linked_compare_negation (op : CmpOp) (s : S) (v : Int) (hl : s.vals ≠ []) :
    ForeignLinked.compare op s (.emptying s.vals.length v) = .ub .useAfterFree := by
  have hpos : 0 < s.vals.length := List.length_pos_iff.mpr hl
  rw [LState.length_vals] at hpos ⊢
  obtain ⟨id0, hid⟩ : ∃ id, s.ids[0]? = some id :=
    ⟨_, List.getElem?_eq_getElem (by rw [LState.length_ids]; omega)⟩
  obtain ⟨k, hk⟩ : ∃ k, s.size = k + 1 := ⟨s.size - 1, by omega⟩
  have hd : ∀ id, ForeignLinked.deref s.clear (some id) = .error .useAfterFree := by
    intro id
    simp [ForeignLinked.deref, place, LState.clear, LState.ids]
  cases op <;> simp only [ForeignLinked.compare, ForeignLinked.eq, ForeignLinked.ne, ForeignLinked.ord, Foreign.Seq.emptying,
    ne_eq, not_true_eq_false, if_false, iterAt, hid] <;> rw [hk] <;>
    simp only [ForeignLinked.eqLoop, ForeignLinked.ordLoop, hd]

/-- `l != v` follows a null pointer when `v.__getitem__` raises, for every list that is not empty. -/
theorem C55_linked_ne_negation (s : S) (e : Exc) (hl : s.vals ≠ []) :
    ForeignLinked.compare .ne s ⟨fun s => (s, .ok s.size), fun _ => .fail id e⟩ = .ub .nullDeref := by
  have hpos : 0 < s.vals.length := List.length_pos_iff.mpr hl
  rw [LState.length_vals] at hpos
  obtain ⟨k, hk⟩ : ∃ k, s.size = k + 1 := ⟨s.size - 1, by omega⟩
  simp only [ForeignLinked.compare, ForeignLinked.ne, ForeignLinked.eq, ne_eq, not_true_eq_false, if_false]
  rw [hk]
  simp only [ForeignLinked.eqLoop]

/-! ## The hypotheses can be met -/

private def two : S := ⟨[(0, 1), (1, 2)], 2, 0⟩

private theorem two_wf : two.WF := ⟨by decide, by decide⟩

/-- An object whose `__index__` appends 7 to the list. -/
private def pushing (v : Int) : Live := ⟨fun s => (s.push 7, .ok v)⟩

/-- A sequence of two items: `__len__` and the conversions append to the list, fetching the first item inserts at its front. -/
private def busy : Seq :=
  ⟨fun s => (s.push 9, .ok 2), fun _ => .item (fun s => s.insert 0 8) (pushing 1) fun _ => .item id (pushing 2) fun _ => .done id⟩

private theorem push_keeps (s : S) (v : Int) : s.ids.Sublist (s.push v).ids := by
  simp [LState.ids, LState.push]

private theorem busy_keeps : busy.KeepsNodes := by
  refine ⟨fun s => push_keeps s 9, fun _ => ⟨fun s => ids_insert_sub s 0 8, fun s => push_keeps s 7, fun _ => ?_⟩⟩
  exact ⟨fun s => List.Sublist.refl _, fun s => push_keeps s 7, fun _ => fun s => List.Sublist.refl _⟩

example (u : UB) : ForeignLinked.setSlice two (.of none none none) busy ≠ .ub u :=
  C55_linked_slice_assignment_partial two _ busy busy_keeps (fun _ => ⟨2, rfl⟩) u

/-- The values land in the two nodes that were in the slice, which have moved by then. -/
example : ∃ t, ForeignLinked.setSlice two (.of none none none) busy = .ok t .none ∧ t.vals = [8, 1, 2, 9, 7, 7] :=
  ⟨_, rfl, rfl⟩
example (op : CmpOp) (h : op ≠ .ne) (u : UB) : ForeignLinked.compare op two busy ≠ .ub u :=
  C55_linked_compare_partial op two busy busy_keeps (fun h' => (h h').elim) u
example : ForeignLinked.compare .lt two (.of [1, 3]) = .ok two (.bool true) := rfl
example : ForeignLinked.setSlice two (.of (some 1) none none) (.of [5, 6, 7]) =
    step ⟨.ge313, false, false, false, false⟩ true two
      (.set (.slice ⟨some (.index 1), none, none⟩) (.inr (.seq [.index 5, .index 6, .index 7]))) :=
  C55_linked_slice_assignment_plain _ _ two two_wf (some 1) none none [5, 6, 7]
example : ForeignLinked.extend true .none two id (.item LState.clear (pushing 5) fun _ => .done id) =
    .ok ⟨[(2, 7), (3, 5)], 4, 1⟩ .none := rfl
example : Foreign.Feed.Answers (.item LState.clear (pushing 5) fun _ => .done id : Feed) :=
  ⟨fun _ => ⟨5, rfl, by decide, by decide⟩, fun _ => trivial⟩
example : ∃ t, ForeignLinked.set two (.of (-1)) (pushing 5) = .ok t .none ∧ t.vals = [1, 5, 7] := ⟨_, rfl, rfl⟩
example : ForeignLinked.set two (.of 1) (.emptying 5) = .ub .badIterator :=
  C55_linked_setitem_negation two 1 5 (by decide) (by decide)

/-- Even a value whose code empties the list and then raises. -/
example : ForeignLinked.set two (.of (-1)) ⟨fun s => (s.clear, .error (.user 3))⟩ = .ub .badIterator :=
  (C55_linked_setitem_exact two _ _ _).mpr ⟨rfl, two, -1, 1, rfl, by decide, by decide, .inr rfl, by decide⟩
example : (⟨fun s => (s, .error .typeError)⟩ : Live).run two = (two, .error .typeError) := rfl

end Verif.Props
