import Verif.Lemmas.StdList
import Verif.Lemmas.ArrayListStep
import Verif.Lemmas.Compare
import Verif.Spec.GuardLinked
import Verif.Model.IntLinkedList

/-! Helper lemmas: the linked list model seen through its values. -/

namespace Verif.LinkedList

open ArrayList (NoTrunc)

/-- The outcome as seen through the values. -/
abbrev view (o : LLOut) : LOut := o.mapState LState.vals

theorem deref_eq (s : S) (i : Nat) :
    deref s i = (match s.vals[i]? with | none => .error .outOfBounds | some v => .ok v) := by
  unfold deref
  rw [listAt_eq]
  simp only
  by_cases h : i < s.size
  · rw [show min i s.size = i by omega]
    cases s.vals[i]? <;> rfl
  · have h1 : s.vals[i]? = none := List.getElem?_eq_none (by simp; omega)
    have h2 : s.vals[min i s.size]? = none := List.getElem?_eq_none (by simp; omega)
    rw [h1, h2]

theorem insert_view (s : S) (i a : Arg) : view (insert s i a) = ArrayList.insert .i32 s.vals i a := by
  unfold insert ArrayList.insert
  show _ = (match parseN i, parseI a with
    | (_, some e), _ => _
    | (_, none), (_, some e) => _
    | (i, none), (v, none) => _)
  simp only [listAt_eq, LState.length_vals]
  generalize parseN i = x
  generalize parseI a = y
  obtain ⟨i, e⟩ := x
  obtain ⟨v, e'⟩ := y
  cases e with
  | some e => rfl
  | none =>
    cases e' with
    | some e => rfl
    | none =>
      simp only
      generalize hj : (if i < 0 then max 0 ((s.size : Int) + i) else if i > s.size then (s.size : Int) else i) = j
      have h : 0 ≤ j ∧ j ≤ s.size := by subst hj; split <;> (try split) <;> omega
      rw [if_pos h]
      simp only [view, Out.mapState, LState.vals_bump, LState.vals_insert]
      rw [show min j.toNat s.size = j.toNat by omega]

theorem remove_view (s : S) (a : Arg) : view (remove s a) = ArrayList.remove .i32 s.vals a := by
  unfold remove ArrayList.remove
  rw [LState.length_vals]
  generalize toElem .i32 a = x
  obtain ⟨v, e⟩ := x
  cases e with
  | some e => rfl
  | none =>
    simp only
    cases ArrayList.findFrom s.vals 0 s.size v with
    | none => rfl
    | some k => simp [view, Out.mapState]

theorem count_view (s : S) (a : Arg) : view (count s a) = ArrayList.count .i32 s.vals a := by
  unfold count ArrayList.count
  generalize toElem .i32 a = x
  obtain ⟨v, e⟩ := x
  simp only
  cases (if v = -1 then e else none) <;> rfl

theorem contains_view (s : S) (a : Arg) : view (contains s a) = ArrayList.contains .i32 s.vals a := by
  unfold contains ArrayList.contains
  rw [LState.length_vals]
  cases a with
  | int v =>
    simp only
    generalize toElem .i32 (.int v) = x
    obtain ⟨v, e⟩ := x
    cases e <;> rfl
  | _ => rfl

theorem index_view (s : S) (a : Arg) (i j : Option Arg) :
    view (index s a i j) = ArrayList.index .i32 s.vals a i j := by
  unfold index ArrayList.index
  simp only [listAt_eq, LState.length_vals, parseElem]
  have core : ∀ v p q, view (
      let start := if p < 0 then p + (s.size : Int) else p
      let stop := if q < 0 then q + (s.size : Int) else q
      let start := if start < 0 then 0 else start
      let stop := if stop > (s.size : Int) then (s.size : Int) else stop
      if start > stop then .exc s .valueError
      else if min stop.toNat s.size < min start.toNat s.size then .ub .badIterator
      else match ArrayList.findFrom s.vals (min start.toNat s.size) (min stop.toNat s.size) v with
        | none => .exc s .valueError
        | some k => .ok s (.int (canon k))) =
      (let start := if p < 0 then p + (s.size : Int) else p
      let stop := if q < 0 then q + (s.size : Int) else q
      let start := if start < 0 then 0 else start
      let stop := if stop > (s.size : Int) then (s.size : Int) else stop
      if start > stop then .exc s.vals .valueError
      else if stop < 0 then .ub .badIterator
      else match ArrayList.findFrom s.vals start.toNat stop.toNat v with
        | none => .exc s.vals .valueError
        | some k => .ok s.vals (.int (canon k))) := by
    intro v p q
    simp only
    generalize hp' : (if p < 0 then p + (s.size : Int) else p) = p'
    generalize hq' : (if q < 0 then q + (s.size : Int) else q) = q'
    generalize hp2 : (if p' < 0 then 0 else p') = p''
    generalize hq2 : (if q' > (s.size : Int) then (s.size : Int) else q') = q''
    have h1 : 0 ≤ p'' := by subst hp2; split <;> omega
    have h2 : q'' ≤ s.size := by subst hq2; split <;> omega
    by_cases h : p'' > q''
    · rw [if_pos h, if_pos h]; rfl
    · rw [if_neg h, if_neg h, if_neg (by omega), if_neg (by omega)]
      rw [show min p''.toNat s.size = p''.toNat by omega, show min q''.toNat s.size = q''.toNat by omega]
      cases ArrayList.findFrom s.vals p''.toNat q''.toNat v <;> rfl
  generalize parseI a = x
  obtain ⟨v, e1⟩ := x
  cases e1 with
  | some e => rfl
  | none =>
    cases i with
    | none =>
      cases j with
      | none => exact core v 0 _
      | some j =>
        simp only
        generalize parseN j = z
        obtain ⟨q, e⟩ := z
        cases e with
        | some e => rfl
        | none => exact core v 0 q
    | some i =>
      simp only
      generalize parseN i = y
      obtain ⟨p, e⟩ := y
      cases e with
      | some e => rfl
      | none =>
        cases j with
        | none => exact core v p _
        | some j =>
          simp only
          generalize parseN j = z
          obtain ⟨q, e⟩ := z
          cases e with
          | some e => rfl
          | none => exact core v p q

theorem getItem_view (cfg : Cfg) (s : S) (i : Int) :
    view (getItem cfg s i) = ArrayList.getItem cfg .i32 s.vals i := by
  unfold getItem ArrayList.getItem
  simp only [LState.length_vals, deref_eq]
  generalize (if i < 0 then (s.size : Int) + i else i) = j
  split
  · rfl
  · cases s.vals[j.toNat]? <;> rfl

theorem sliceLoop_view (s : S) (start step : Int) (n i : Nat) :
    sliceLoop s start step n i = ArrayList.sliceLoop s.vals start step n i := by
  induction n generalizing i with
  | zero => rfl
  | succ n ih =>
    rw [sliceLoop, ArrayList.sliceLoop]
    simp only [deref_eq, ih]
    split
    · rfl
    · cases s.vals[(start + (i : Int) * step).toNat]? <;> simp only
      cases ArrayList.sliceLoop s.vals start step n (i + 1) <;> rfl

theorem subscript_view (cfg : Cfg) (s : S) (k : Key) :
    view (subscript cfg s k) = ArrayList.subscript cfg .i32 s.vals k := by
  cases k with
  | idx a =>
    cases a with
    | other => rfl
    | int v =>
      simp only [subscript, ArrayList.subscript]
      generalize asSsizeIndex (.int v) = x
      obtain ⟨i, e⟩ := x
      cases e with
      | some e => rfl
      | none => exact getItem_view cfg s i
    | index v =>
      simp only [subscript, ArrayList.subscript]
      generalize asSsizeIndex (.index v) = x
      obtain ⟨i, e⟩ := x
      cases e with
      | some e => rfl
      | none => exact getItem_view cfg s i
  | slice sl =>
    simp only [subscript, ArrayList.subscript, LState.length_vals, sliceLoop_view]
    cases sliceUnpack sl with
    | error e => rfl
    | ok f =>
      obtain ⟨a, b, c⟩ := f
      simp only
      generalize adjustIndices (s.size : Int) a b c = t
      obtain ⟨a', b', n⟩ := t
      simp only
      cases ArrayList.sliceLoop s.vals a' c n.toNat 0 <;> rfl

theorem setItem_view (s : S) (i : Int) (a : Option Arg) (h : ∀ x, a = some x → (toElem .i32 x).2 = none) :
    view (setItem s i a) = ArrayList.setItem .i32 s.vals i a := by
  unfold setItem ArrayList.setItem
  simp only [LState.length_vals, listAt_eq]
  generalize (if i < 0 then (s.size : Int) + i else i) = j
  by_cases hj : j < 0 ∨ j ≥ (s.size : Int)
  · rw [if_pos hj, if_pos hj]; rfl
  · rw [if_neg hj, if_neg hj]
    have h1 : j.toNat < s.size := by omega
    rw [show min j.toNat s.size = j.toNat by omega]
    simp only [if_pos h1]
    cases a with
    | none => simp [view, Out.mapState]
    | some x =>
      have hx := h x rfl
      simp only
      revert hx
      generalize toElem .i32 x = y
      obtain ⟨v, e⟩ := y
      rintro rfl
      simp [view, Out.mapState]

theorem assignLoop_view (cfg : Cfg) (src : Src) (p n i : Nat) (s : S) :
    view (assignLoop cfg src p n i s) = ArrayList.assignLoop cfg .i32 src p n i s.vals := by
  induction n generalizing i s with
  | zero => rfl
  | succ n ih =>
    rw [assignLoop, ArrayList.assignLoop]
    simp only [srcItem, LState.length_vals]
    cases ArrayList.srcItem cfg .i32 s.vals src i with
    | none => rfl
    | some x =>
      obtain ⟨v, e⟩ := x
      simp only
      by_cases h : p + i < s.size
      · rw [if_pos h, if_pos h]
        cases e with
        | some e => simp [view, Out.mapState]
        | none =>
          have := ih (i + 1) (s.assign (p + i) v)
          rw [LState.vals_assign] at this
          exact this
      · rw [if_neg h, if_neg h]; rfl

theorem insertLoop_view (cfg : Cfg) (src : Src) (p n i : Nat) (s : S) :
    view (insertLoop cfg src p n i s) = ArrayList.insertLoop cfg .i32 src p n i s.vals := by
  induction n generalizing i s with
  | zero => rfl
  | succ n ih =>
    rw [insertLoop, ArrayList.insertLoop]
    simp only [srcItem, LState.length_vals]
    cases ArrayList.srcItem cfg .i32 s.vals src i with
    | none => rfl
    | some x =>
      obtain ⟨v, e⟩ := x
      simp only
      by_cases h : p + i ≤ s.size
      · rw [if_pos h, if_pos h]
        cases e with
        | some e => simp [view, Out.mapState]
        | none =>
          have := ih (i + 1) (s.insert (p + i) v)
          rw [LState.vals_insert] at this
          exact this
      · rw [if_neg h, if_neg h]; rfl

theorem assignLoop_length {cfg : Cfg} {K : Kind} {src : Src} {p n i : Nat} {l l' : List Int} {r : Ret}
    (h : ArrayList.assignLoop cfg K src p n i l = .ok l' r) : l'.length = l.length := by
  induction n generalizing i l with
  | zero => rw [ArrayList.assignLoop] at h; injection h with h; rw [← h]
  | succ n ih =>
    rw [ArrayList.assignLoop] at h
    cases hx : ArrayList.srcItem cfg K l src i with
    | none => rw [hx] at h; cases h
    | some x =>
      obtain ⟨v, e⟩ := x
      rw [hx] at h
      simp only at h
      split at h
      · cases e with
        | some e => cases h
        | none => have := ih h; simpa using this
      · cases h

theorem mulLoop_eq (l : List Int) (k : Nat) (acc : List Int) :
    mulLoop l k acc = acc ++ (List.replicate k l).flatten := by
  induction k generalizing acc with
  | zero => simp [mulLoop]
  | succ k ih => rw [mulLoop, ih]; simp [List.replicate_succ]

theorem mul_eq (s : S) (n : Int) : mul s n = .ok s (.newList (Spec.copies s.vals n)) := by
  unfold mul
  by_cases h : n ≤ 0
  · have h1 : (if n < 0 then 0 else n) = 0 := by split <;> omega
    have h2 : n.toNat = 0 := by omega
    simp [h1, Spec.copies, h2]
  · have h1 : (if n < 0 then 0 else n) = n := by split <;> omega
    simp only [h1]
    rw [if_neg (by omega), mulLoop_eq]
    simp [Spec.copies]

theorem imul_small (strict : Bool) (s : S) (n : Int) (h : n ≤ 1) :
    view (imul strict s n) = .ok (Spec.copies s.vals n) .self := by
  unfold imul
  by_cases h0 : n ≤ 0
  · have h1 : (if n < 0 then 0 else n) = 0 := by split <;> omega
    have h2 : n.toNat = 0 := by omega
    simp [h1, Spec.copies, h2, Out.mapState]
  · obtain rfl : n = 1 := by omega
    simp [imulLoop, Spec.copies, Out.mapState]

/-- Libstdc++: k rounds double the list k times. -/
theorem imulLoop_double (k : Nat) (s : S) :
    ∃ s', imulLoop false k s = .ok s' ∧ s'.vals = (List.replicate (2 ^ k) s.vals).flatten := by
  induction k generalizing s with
  | zero => exact ⟨s, rfl, by simp⟩
  | succ k ih =>
    obtain ⟨s', h1, h2⟩ := ih (s.pushAll s.vals)
    refine ⟨s', by simpa [imulLoop] using h1, ?_⟩
    rw [h2, LState.vals_pushAll]
    have : ∀ (m : Nat) (l : List Int), (List.replicate m (l ++ l)).flatten = (List.replicate (2 * m) l).flatten := by
      intro m l
      induction m with
      | zero => simp
      | succ m ih =>
        rw [List.replicate_succ, List.flatten_cons, ih, show 2 * (m + 1) = 2 * m + 1 + 1 by omega,
          List.replicate_succ, List.replicate_succ]
        simp
    rw [this, Nat.pow_succ, Nat.mul_comm]

theorem pushLoop_good (xs : List Arg) (s : S) (h : ∀ a ∈ xs, Spec.IsElem 32 a = true) :
    ∃ s', pushLoop xs s = (s', none, true) ∧ s'.vals = s.vals ++ xs.map Spec.argVal := by
  induction xs generalizing s with
  | nil => exact ⟨s, rfl, by simp⟩
  | cons a as ih =>
    obtain ⟨s', h1, h2⟩ := ih (s.push (Spec.argVal a)) (fun b hb => h b (List.mem_cons_of_mem _ hb))
    refine ⟨s', ?_, by rw [h2]; simp⟩
    rw [pushLoop, ArrayList.toElem_isElem (K := .i32) (h a (List.mem_cons_self ..))]
    exact h1

theorem pushItems_good (bump : Bool) (s : S) (xs : List Arg) (f : Option Exc) (r : Ret)
    (h : ∀ a ∈ xs, Spec.IsElem 32 a = true) :
    view (pushItems bump s xs f r) = (match f with
      | none => .ok (s.vals ++ xs.map Spec.argVal) r
      | some e => .exc (s.vals ++ xs.map Spec.argVal) e) := by
  obtain ⟨s', h1, h2⟩ := pushLoop_good xs s h
  unfold pushItems
  rw [h1]
  cases bump <;> cases f <;> simp [view, Out.mapState, h2]

theorem prefix_good {xs : List Arg} (h : ∀ a ∈ xs, Spec.IsElem 32 a = true) :
    Spec.prefixElems 32 xs = xs.map Spec.argVal ∧ Spec.firstBad 32 xs = none := by
  constructor
  · unfold Spec.prefixElems
    congr 1
    induction xs with
    | nil => rfl
    | cons a as ih =>
      rw [List.takeWhile_cons, if_pos (h a (List.mem_cons_self ..)),
        ih (fun b hb => h b (List.mem_cons_of_mem _ hb))]
  · unfold Spec.firstBad
    have : xs.find? (fun a => !Spec.IsElem 32 a) = none := by
      rw [List.find?_eq_none]
      intro a ha
      simp [h a ha]
    rw [this]

theorem extendWith_ok (strict bump : Bool) (s : S) (src : Src) (r : Ret) (v : Spec.Val) (hrv : RetIs r v)
    (h : SrcElems src) (hsame : ∀ x, src = .same x → v = .none) :
    Agrees (view (extendWith strict bump s src r)) (Spec.absorb 32 s.vals src v) := by
  have key : ∀ xs f, (∀ a ∈ xs, Spec.IsElem 32 a = true) →
      Agrees (view (pushItems bump s xs f r))
       (match Spec.firstBad 32 xs, f with
        | some e, _ => (s.vals ++ Spec.prefixElems 32 xs, .error e)
        | none, some e => (s.vals ++ Spec.prefixElems 32 xs, .error e)
        | none, none => (s.vals ++ Spec.prefixElems 32 xs, .ok v)) := by
    intro xs f hx
    rw [pushItems_good bump s xs f r hx, (prefix_good hx).1, (prefix_good hx).2]
    cases f with
    | none => exact ⟨rfl, hrv⟩
    | some e => exact ⟨rfl, rfl⟩
  cases src with
  | same x =>
    obtain rfl := hsame x rfl
    obtain ⟨h1, h2⟩ := ArrayList.prefix_map_int (b := 32) (v := x) h
    simp only [Spec.absorb, Spec.items, h1, h2, extendWith]
    cases bump <;> exact ⟨by simp, trivial⟩
  | self => exact absurd h id
  | list xs => exact key xs none h
  | tuple xs => exact key xs none h
  | seq xs => exact key xs none h
  | seqNoLen xs => exact key xs none h
  | iter xs f => exact key xs f h
  | notIterable => exact ⟨rfl, rfl⟩

theorem pop_view (cfg : Cfg) (s : S) : view (pop cfg s none) = ArrayList.pop cfg .i32 s.vals none := by
  unfold pop ArrayList.pop
  cases s.vals.getLast? with
  | none => rfl
  | some x =>
    simp only [view, Out.mapState, LState.vals_bump, LState.vals_erase]
    rw [LState.vals_length, List.eraseIdx_length_sub_one]

theorem repr_view (s : S) : view (repr s) = .ok s.vals (.str (ArrayList.repr s.vals)) := by
  unfold repr ArrayList.repr
  by_cases h : s.size = 0
  · have : s.vals = [] := List.eq_nil_of_length_eq_zero (by simpa using h)
    simp [h, this, view, Out.mapState]
  · have hn : s.vals ≠ [] := by intro he; rw [LState.vals_length, he] at h; exact h rfl
    rw [if_neg h, deref_eq]
    have e1 : s.vals.getLast? = some (s.vals.getLast hn) := List.getLast?_eq_some_getLast hn
    have e2 : s.vals[s.size - 1]? = some (s.vals.getLast hn) := by
      rw [← e1, List.getLast?_eq_getElem?, LState.length_vals]
    rw [e1, e2]
    simp only [view, Out.mapState]
    rw [LState.vals_length, ← List.dropLast_eq_take]

theorem adjust_one {n : Nat} {a b start stop cnt : Int} (h : adjustIndices n a b 1 = (start, stop, cnt)) :
    0 ≤ start ∧ start ≤ n ∧ 0 ≤ stop ∧ stop ≤ n ∧ cnt = max 0 (stop - start) := by
  have h1 := congrArg (fun x => x.1) h
  have h2 := congrArg (fun x => x.2.1) h
  have h3 := congrArg (fun x => x.2.2) h
  simp only [adjustIndices, show ¬ ((1:Int) < 0) by decide, if_false] at h1 h2 h3
  rw [h1, h2, Int.ediv_one] at h3
  subst h1; subst h2; subst h3
  split <;> split <;> (try split) <;> (try split) <;> (try split) <;> omega

theorem assSubscript_slice_view (cfg : Cfg) (s : S) (sl : SliceArg) (val : Option (Arg ⊕ Src))
    (h : ∀ xs, val ≠ some (.inr (.seqNoLen xs))) :
    view (assSubscript cfg s (.slice sl) val) = ArrayList.assSubscript cfg .i32 s.vals (.slice sl) val := by
  simp only [assSubscript, ArrayList.assSubscript, LState.length_vals, listAt_eq]
  cases sliceUnpack sl with
  | error e => rfl
  | ok f =>
    obtain ⟨a, b, c⟩ := f
    simp only
    generalize ha : adjustIndices (s.size : Int) a b c = t
    obtain ⟨start, stop, n⟩ := t
    simp only
    cases val with
    | none => rfl
    | some val =>
      cases val with
      | inl x => rfl
      | inr src =>
        simp only
        by_cases hseq : src.isSequence = true
        · have hm : 0 ≤ ArrayList.srcSize s.vals src := by
            cases src with
            | seqNoLen xs => exact absurd rfl (h xs)
            | iter | notIterable => exact absurd hseq (by simp [Src.isSequence])
            | _ => simp only [ArrayList.srcSize]; omega
          generalize ArrayList.srcSize s.vals src = m at hm
          simp only [hseq, Bool.not_true, Bool.false_eq_true, if_false]
          by_cases hc : c = 1
          · subst hc
            obtain ⟨h1, h2, h3, h4, h5⟩ := adjust_one ha
            simp only [ne_eq, not_true_eq_false, if_false]
            rw [show min start.toNat s.size = start.toNat by omega]
            by_cases e1 : m = n
            · rw [if_pos e1, if_pos e1]; exact assignLoop_view ..
            · rw [if_neg e1, if_neg e1]
              by_cases e2 : m < n
              · rw [if_pos e2, if_pos e2]
                have hv := assignLoop_view cfg src start.toNat m.toNat 0 s
                cases ho : assignLoop cfg src start.toNat m.toNat 0 s with
                | ok s' r =>
                  rw [ho] at hv
                  rw [← hv]
                  have hl := assignLoop_length hv.symm
                  rw [LState.length_vals, LState.length_vals] at hl
                  simp only [view, Out.mapState]
                  rw [walkFwd_ok _ _ _ (by omega), if_pos (by rw [LState.length_vals]; omega)]
                  simp only [if_neg (show ¬ m < 0 by omega), LState.vals_eraseRange]
                  congr 3 <;> omega
                | _ => rw [ho] at hv; rw [← hv]; rfl
              · rw [if_neg e2, if_neg e2]
                have hv := assignLoop_view cfg src start.toNat n.toNat 0 s
                cases ho : assignLoop cfg src start.toNat n.toNat 0 s with
                | ok s' r =>
                  rw [ho] at hv
                  rw [← hv]
                  exact insertLoop_view ..
                | _ => rw [ho] at hv; rw [← hv]; rfl
          · simp only [ne_eq, hc, not_false_eq_true, if_true]; rfl
        · simp only [hseq, Bool.not_false, if_true]; rfl

theorem assSubscript_idx_view (cfg : Cfg) (s : S) (a : Arg) (val : Option (Arg ⊕ Src))
    (h : ∀ x, val = some x → ∃ y, x = .inl y ∧ (toElem .i32 y).2 = none) :
    view (assSubscript cfg s (.idx a) val) = ArrayList.assSubscript cfg .i32 s.vals (.idx a) val := by
  revert h
  have key : ∀ x : CRes, (∀ x, val = some x → ∃ y, x = .inl y ∧ (toElem .i32 y).2 = none) → view (match x with
      | (_, some e) => .exc s e
      | (i, none) => match val with
        | none => setItem s i none
        | some (.inl v) => setItem s i (some v)
        | some (.inr _) => setItem s i (some .other)) =
      (match x with
      | (_, some e) => .exc s.vals e
      | (i, none) => match val with
        | none => ArrayList.setItem .i32 s.vals i none
        | some (.inl v) => ArrayList.setItem .i32 s.vals i (some v)
        | some (.inr _) => ArrayList.setItem .i32 s.vals i (some .other)) := by
    rintro ⟨i, e⟩ h
    cases e with
    | some e => rfl
    | none =>
      cases val with
      | none => exact setItem_view s i none (by simp)
      | some x =>
        obtain ⟨y, rfl, hy⟩ := h x rfl
        refine setItem_view s i (some y) ?_
        rintro _ ⟨⟩; exact hy
  cases a with
  | other => intro _; rfl
  | int v => exact key _
  | index v => exact key _

/-- Comparison with an operand whose values survive. -/
theorem cmpItems_ints {cfg : Cfg} {s : S} {src : Src} {v : List Int} (hf : AllFits .i32 s.vals)
    (h : CmpInts cfg s.vals src = some v) :
    cmpItems cfg s src = some (v.map fun y => (y, none)) ∧ (∀ xs, src ≠ .seqNoLen xs) ∧
      ∀ op, Spec.cmp op s.vals src = .ok (.bool (Spec.compare op s.vals v)) := by
  have hm : ∀ w : List Int, AllFits .i32 w → (cfg.py = .le311 ∨ ∀ x ∈ w, 0 ≤ x) →
      w.map (rebox .i32 cfg.py) = w.map fun y => (y, none) := by
    intro w h1 h2
    refine List.map_congr_left fun x hx => ArrayList.rebox_eq cfg .i32 (h1 x hx) (.inr ?_)
    rcases h2 with h2 | h2
    · exact .inl h2
    · exact .inr (h2 x hx)
  cases src with
  | same w =>
    simp only [CmpInts] at h
    split at h
    · next hw =>
      obtain rfl := Option.some.inj h
      exact ⟨congrArg some (hm w hw.1 hw.2), by simp, fun op => rfl⟩
    · cases h
  | self =>
    simp only [CmpInts] at h
    split at h
    · next hw =>
      obtain rfl := Option.some.inj h
      exact ⟨congrArg some (hm _ hf hw), by simp, fun op => rfl⟩
    · cases h
  | list xs =>
    simp only [CmpInts, ArrayList.SrcInts] at h
    split at h
    · next hw =>
      obtain rfl := Option.some.inj h
      obtain ⟨h1, h2⟩ := ArrayList.map_toElem_ints (K := .i32) hw
      refine ⟨congrArg some h1, by simp, fun op => ?_⟩
      simp only [Spec.cmp, h2]
    · cases h
  | _ => cases h

theorem eq_ints {cfg : Cfg} {s : S} {src : Src} {v : List Int} (hf : AllFits .i32 s.vals)
    (h : CmpInts cfg s.vals src = some v) : eq cfg s src = (decide (s.vals = v), none) := by
  obtain ⟨h1, h2, -⟩ := cmpItems_ints hf h
  have e : eq cfg s src = (match cmpItems cfg s src with
    | none => (false, none)
    | some ys => if ys.length ≠ s.size then (false, none) else ArrayList.eqLoop s.vals ys) := by
    cases src with
    | seqNoLen xs => exact absurd rfl (h2 xs)
    | _ => rfl
  rw [e, h1]
  simp only [List.length_map]
  by_cases hl : v.length = s.size
  · rw [if_neg (by simpa using hl)]
    exact ArrayList.eqLoop_vals _ _ (by simpa using hl)
  · rw [if_pos hl]
    have : s.vals ≠ v := by rintro rfl; exact hl (LState.length_vals s)
    simp [this]

theorem ord_ints {cfg : Cfg} {s : S} {src : Src} {v : List Int} (op : CmpOp) (hf : AllFits .i32 s.vals)
    (h : CmpInts cfg s.vals src = some v) :
    ord cfg op s src = (if s.size ≠ v.length then .ok s (.bool (decide (s.size < v.length)))
      else match ArrayList.ordLoop op s.vals (v.map fun y => (y, none)) none with
        | (some b, p) => boolOut s b p
        | (none, p) => boolOut s false p) := by
  obtain ⟨h1, h2, -⟩ := cmpItems_ints hf h
  have e : ord cfg op s src = (match cmpItems cfg s src with
    | none => .ok s (.bool false)
    | some ys =>
      if s.size ≠ ys.length then .ok s (.bool (decide (s.size < ys.length)))
      else
        match ArrayList.ordLoop op s.vals ys none with
        | (some b, p) => boolOut s b p
        | (none, p) => boolOut s false p) := by
    cases src with
    | seqNoLen xs => exact absurd rfl (h2 xs)
    | _ => rfl
  rw [e, h1]
  simp only [List.length_map]

theorem ordLoop_spec (op : CmpOp) (hop : op = .lt ∨ op = .le ∨ op = .gt ∨ op = .ge) (l v : List Int)
    (hl : l.length = v.length) :
    ArrayList.ordLoop op l (v.map fun y => (y, none)) none =
      (if l = v then none else some (Spec.compare op l v), none) := by
  induction l generalizing v with
  | nil =>
    obtain rfl : v = [] := List.eq_nil_of_length_eq_zero hl.symm
    rfl
  | cons x xs ih =>
    cases v with
    | nil => cases hl
    | cons y ys =>
      simp only [List.map_cons, ArrayList.ordLoop, Option.or_none]
      have hl' : xs.length = ys.length := by simpa using hl
      by_cases hxy : x = y
      · subst hxy
        rw [if_neg (by simp)]
        rw [ih ys hl']
        by_cases hv : xs = ys
        · simp [hv]
        · have : x :: xs ≠ x :: ys := by simpa using hv
          rw [if_neg hv, if_neg this]
          have hlt : ∀ a b : List Int, Spec.lexLt (x :: a) (x :: b) = Spec.lexLt a b := by
            intro a b; simp [Spec.lexLt]
          rcases hop with rfl | rfl | rfl | rfl <;> simp [Spec.compare, hlt]
      · have : x :: xs ≠ y :: ys := by simp [hxy]
        rw [if_pos hxy, if_neg this]
        have h2 : x < y ∨ y < x := by omega
        rcases h2 with h2 | h2
        · have h3 : ¬ y < x := by omega
          rcases hop with rfl | rfl | rfl | rfl <;>
            simp [Spec.compare, Spec.lexLt, CmpOp.rel, h2, h3, hxy] <;> omega
        · have h3 : ¬ x < y := by omega
          rcases hop with rfl | rfl | rfl | rfl <;>
            simp [Spec.compare, Spec.lexLt, CmpOp.rel, h2, h3, hxy] <;> omega

theorem ord_value {cfg : Cfg} {s : S} {src : Src} {v : List Int} (op : CmpOp)
    (hop : op = .lt ∨ op = .le ∨ op = .gt ∨ op = .ge) (hf : AllFits .i32 s.vals)
    (h : CmpInts cfg s.vals src = some v) :
    compare cfg op s src = .ok s (.bool (
      if s.size ≠ v.length then decide (s.size < v.length)
      else if s.vals = v then false else Spec.compare op s.vals v)) := by
  have e : compare cfg op s src = ord cfg op s src := by rcases hop with rfl | rfl | rfl | rfl <;> rfl
  rw [e, ord_ints op hf h]
  by_cases hl : s.size = v.length
  · rw [if_neg (by simpa using hl), if_neg (by simpa using hl), ordLoop_spec op hop _ _ (by simpa using hl)]
    by_cases hv : s.vals = v <;> simp [hv, boolOut]
  · rw [if_pos hl, if_pos hl]

theorem step_agrees (cfg : Cfg) (strict : Bool) (s : S) (op : Op) (hf : AllFits .i32 s.vals)
    (h : OpOk cfg s.vals op) : Agrees (view (step cfg strict s op)) (Spec.step 32 s.vals op) := by
  have arr : ∀ op, ArrayList.OpOk cfg .i32 s.vals op →
      Agrees (ArrayList.step cfg .i32 s.vals op) (Spec.step 32 s.vals op) :=
    fun op h => ArrayList.step_agrees cfg .i32 s.vals op hf h
  cases op with
  | append a =>
    have h' : Spec.elem 32 a = .ok (Spec.argVal a) := by
      rw [ArrayList.elem_isElem]; exact if_pos h
    simp only [step, append, Spec.step, h', ArrayList.toElem_isElem (K := .i32) h]
    exact ⟨by simp, trivial⟩
  | extend src => exact extendWith_ok strict true s src .none .none trivial h (fun _ _ => rfl)
  | iadd src =>
    refine extendWith_ok strict false s src .self .self trivial h.1 ?_
    rintro x rfl; exact absurd h.2 id
  | insert i a => simp only [step, insert_view]; exact arr (.insert i a) h
  | pop a =>
    obtain ⟨rfl, h2⟩ := h
    simp only [step, pop_view]
    exact arr (.pop none) ⟨trivial, h2⟩
  | remove a => simp only [step, remove_view]; exact arr (.remove a) h
  | index a i j => simp only [step, index_view]; exact arr (.index a i j) h
  | count a => simp only [step, count_view]; exact arr (.count a) h
  | contains a => simp only [step, contains_view]; exact arr (.contains a) h
  | get k =>
    simp only [step, subscript_view]
    exact arr (.get k) (by cases k <;> exact h)
  | set k v =>
    cases k with
    | idx a =>
      obtain ⟨h1, h2⟩ := h
      cases v with
      | inr src => exact absurd h2 id
      | inl x =>
        simp only [step]
        rw [assSubscript_idx_view]
        · refine arr (.set (.idx a) (.inl x)) ⟨h1, ?_⟩
          cases x with
          | other => exact trivial
          | int v | index v => intro _; exact of_decide_eq_true h2
        · rintro _ ⟨⟩
          exact ⟨x, rfl, by rw [ArrayList.toElem_isElem (K := .i32) h2]⟩
    | slice sl =>
      simp only [step]
      rw [assSubscript_slice_view]
      · exact arr (.set (.slice sl) v) h
      · rintro xs ⟨⟩
        rcases h.2 with h | h
        · cases h
        · exact absurd h.1 id
  | del k =>
    cases k with
    | idx a =>
      simp only [step]
      rw [assSubscript_idx_view]
      · exact arr (.del (.idx a)) h
      · rintro _ ⟨⟩
    | slice sl =>
      simp only [step]
      rw [assSubscript_slice_view]
      · exact arr (.del (.slice sl)) h
      · rintro xs ⟨⟩
  | add src =>
    have e : view (add cfg s src) = ArrayList.add cfg .i32 s.vals src := by cases src <;> rfl
    simp only [step, e]
    exact arr (.add src) h
  | mul n => simp only [step, mul_eq, Spec.step]; exact ⟨rfl, rfl⟩
  | rmul a =>
    cases a with
    | int n | index n =>
      simp only [step, rmul, asLong, Spec.step]
      by_cases h64 : FitsS 64 n
      · rw [if_pos h64, if_pos (show Spec.InRange 64 n from h64)]
        simp only [mul_eq]; exact ⟨rfl, rfl⟩
      · rw [if_neg h64, if_neg (show ¬ Spec.InRange 64 n from h64)]
        exact ⟨rfl, rfl⟩
    | _ => exact ⟨rfl, rfl⟩
  | imul n =>
    simp only [step, Spec.step]
    rw [imul_small strict s n h]
    exact ⟨rfl, trivial⟩
  | cmp op src =>
    rcases h with h | h
    · cases hc : CmpInts cfg s.vals src with
      | none => rw [hc] at h; exact absurd h id
      | some v =>
        rw [hc] at h
        have hs := (cmpItems_ints hf hc).2.2 op
        simp only [step, Spec.step, hs]
        have he := eq_ints hf hc
        rcases h with rfl | rfl | ⟨h1, h2⟩
        · simp only [compare, he]; exact ⟨rfl, rfl⟩
        · simp only [compare, he]; exact ⟨rfl, by simp [RetIs, Spec.compare]⟩
        · by_cases hop : op = .lt ∨ op = .le ∨ op = .gt ∨ op = .ge
          · rw [ord_value op hop hf hc]
            refine ⟨rfl, ?_⟩
            simp only [RetIs]
            rw [if_neg (by simp [h1])]
            by_cases hv : s.vals = v
            · rw [if_pos hv]
              subst hv
              rcases h2 with rfl | rfl | h2
              · simp [Spec.compare, lexLt_irrefl]
              · simp [Spec.compare, lexLt_irrefl]
              · exact absurd rfl h2
            · rw [if_neg hv]
          · cases op <;> simp at hop
            · simp only [compare, he]; exact ⟨rfl, rfl⟩
            · simp only [compare, he]; exact ⟨rfl, by simp [RetIs, Spec.compare]⟩
    · cases src with
      | iter xs f => rcases h with rfl | rfl <;> exact ⟨rfl, rfl⟩
      | notIterable => rcases h with rfl | rfl <;> exact ⟨rfl, rfl⟩
      | _ => exact absurd h id
  | reverse => simp only [step, Spec.step]; exact ⟨by simp, trivial⟩
  | resize a => exact absurd h id
  | clear => exact ⟨rfl, trivial⟩
  | copy => exact ⟨rfl, rfl⟩
  | toList => exact arr .toList h
  | len =>
    refine ⟨rfl, ?_⟩
    show canon (s.size : Int) = canon (s.vals.length : Int)
    rw [LState.length_vals]
  | repr =>
    simp only [step, repr_view]
    exact arr .repr h

theorem step_get_view (cfg : Cfg) (strict : Bool) (s : S) (k : Key) :
    view (step cfg strict s (.get k)) = ArrayList.step cfg .i32 s.vals (.get k) :=
  subscript_view cfg s k

end Verif.LinkedList
