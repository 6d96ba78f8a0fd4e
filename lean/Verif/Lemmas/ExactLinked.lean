import Verif.Spec.ExactLinked
import Verif.Lemmas.ExactSlice
import Verif.Lemmas.IntLinkedList

/-!
# The exact domain of IntLinkedList: every call against the specification
-/

namespace Verif.LinkedList

open ArrayList (ReadBack BoxAt EqDecided lowBits)

theorem append_exact (s : S) (a : Arg) :
    Agrees (view (append s a)) (Spec.step 32 s.vals (.append a)) ↔ Spec.IsElem 32 a = true := by
  constructor
  · intro h
    refine Classical.byContradiction fun hk => ?_
    obtain ⟨e, he⟩ := ArrayList.elem_bad (b := 32) (Bool.eq_false_iff.2 hk)
    simp only [append, Spec.step, he] at h
    generalize toElem .i32 a = q at h
    obtain ⟨v, _ | e⟩ := q <;> exact h
  · intro h
    have h' : Spec.elem 32 a = .ok (Spec.argVal a) := by
      rw [ArrayList.elem_isElem]; exact if_pos h
    simp only [append, Spec.step, h', ArrayList.toElem_isElem (K := .i32) h]
    exact ⟨by simp, trivial⟩

/-! ### extend, += -/

theorem pushLoop_len (xs : List Arg) : ∀ s : S, s.vals.length ≤ (pushLoop xs s).1.vals.length := by
  induction xs with
  | nil => intro s; exact Nat.le_refl _
  | cons a as ih =>
    intro s
    rw [pushLoop]
    generalize toElem .i32 a = q
    obtain ⟨v, _ | e⟩ := q
    · refine Nat.le_trans ?_ (ih (s.push v)); simp
    · simp

/-- Every item up to the first that is no element is pushed, and this one too. -/
theorem pushLoop_bad (xs : List Arg) : ∀ s : S, ¬ AllElems xs →
    s.vals.length + (Spec.prefixElems 32 xs).length < (pushLoop xs s).1.vals.length := by
  induction xs with
  | nil => intro s h; exact absurd (by unfold AllElems; simp) h
  | cons a as ih =>
    intro s h
    rw [pushLoop]
    by_cases hk : Spec.IsElem 32 a = true
    · rw [ArrayList.toElem_isElem (K := .i32) hk, (ArrayList.prefix_cons_pos (as := as) hk).1]
      have := ih (s.push (Spec.argVal a)) (fun hn => h (by
        intro b hb
        rcases List.mem_cons.1 hb with rfl | hb
        · exact hk
        · exact hn b hb))
      simp only [LState.vals_push, List.length_append, List.length_cons, List.length_nil] at this ⊢
      omega
    · rw [(ArrayList.prefix_cons_neg (as := as) (Bool.eq_false_iff.2 hk)).1]
      generalize toElem .i32 a = q
      obtain ⟨v, _ | e⟩ := q
      · have := pushLoop_len as (s.push v)
        simp only [LState.vals_push, List.length_append, List.length_cons, List.length_nil] at this ⊢
        omega
      · simp

theorem pushItems_exact (bump : Bool) (s : S) (xs : List Arg) (f : Option Exc) (r : Ret) (v : Spec.Val)
    (hrv : RetIs r v) :
    Agrees (view (pushItems bump s xs f r))
     (match Spec.firstBad 32 xs, f with
    | some e, _ => (s.vals ++ Spec.prefixElems 32 xs, .error e)
    | none, some e => (s.vals ++ Spec.prefixElems 32 xs, .error e)
    | none, none => (s.vals ++ Spec.prefixElems 32 xs, .ok v)) ↔ AllElems xs := by
  constructor
  · intro h
    refine Classical.byContradiction fun hn => ?_
    have hw := pushLoop_bad xs s hn
    unfold pushItems at h
    generalize pushLoop xs s = o at h hw
    obtain ⟨s', e, atEnd⟩ := o
    simp only at h hw
    have hb : (if (bump && atEnd) = true then s'.bump else s').vals = s'.vals := by split <;> simp
    generalize (if (bump && atEnd) = true then s'.bump else s') = s'' at h hb
    generalize (if atEnd = true then f.or e else e) = e' at h
    generalize Spec.firstBad 32 xs = fb at h
    cases e' <;> cases fb <;> cases f <;> first
      | exact absurd h id
      | (have := congrArg List.length h.1
         simp only [List.length_append] at this
         rw [hb] at this
         omega)
  · intro h
    rw [pushItems_good bump s xs f r h, (prefix_good h).1, (prefix_good h).2]
    cases f with
    | none => exact ⟨rfl, hrv⟩
    | some e => exact ⟨rfl, rfl⟩

theorem extend_exact (cfg : Cfg) (strict : Bool) (s : S) (src : Src) (hf : AllFits .i32 s.vals)
    (hp : ArrayList.Src.Possible .i32 src) :
    Agrees (view (extendWith strict true s src .none)) (Spec.step 32 s.vals (.extend src)) ↔
      Exact cfg strict s.vals (.extend src) := by
  have key := fun xs f => pushItems_exact true s xs f .none .none trivial
  cases src with
  | same x =>
    refine ⟨fun _ => trivial, fun _ => ?_⟩
    obtain ⟨h1, h2⟩ := ArrayList.prefix_map_int (b := 32) (v := x) hp
    simp only [Spec.step, Spec.absorb, Spec.items, h1, h2, extendWith]
    exact ⟨by simp, trivial⟩
  | self =>
    obtain ⟨h1, h2⟩ := ArrayList.prefix_map_int (b := 32) (v := s.vals) hf
    simp only [Spec.step, Spec.absorb, Spec.items, h1, h2, extendWith, Exact]
    cases strict with
    | true => exact ⟨fun h => absurd h id, fun h => by cases h⟩
    | false => exact ⟨fun _ => rfl, fun _ => ⟨by simp, trivial⟩⟩
  | list xs => exact key xs none
  | tuple xs => exact key xs none
  | seq xs => exact key xs none
  | seqNoLen xs => exact key xs none
  | iter xs f => exact key xs f
  | notIterable => exact ⟨fun _ => trivial, fun _ => ⟨rfl, rfl⟩⟩

theorem iadd_exact (cfg : Cfg) (strict : Bool) (s : S) (src : Src) (hf : AllFits .i32 s.vals)
    (hp : ArrayList.Src.Possible .i32 src) :
    Agrees (view (extendWith strict false s src .self)) (Spec.step 32 s.vals (.iadd src)) ↔
      Exact cfg strict s.vals (.iadd src) := by
  have key := fun xs f => pushItems_exact false s xs f .self .self trivial
  cases src with
  | same x =>
    refine ⟨fun h => ?_, fun h => absurd h id⟩
    obtain ⟨h1, h2⟩ := ArrayList.prefix_map_int (b := 32) (v := x) hp
    simp only [Spec.step, Spec.absorb, Spec.items, h1, h2, extendWith] at h
    exact absurd h.2 id
  | self =>
    obtain ⟨h1, h2⟩ := ArrayList.prefix_map_int (b := 32) (v := s.vals) hf
    simp only [Spec.step, Spec.absorb, Spec.items, h1, h2, extendWith, Exact, iff_false]
    cases strict with
    | true => exact id
    | false => exact fun h => h.2
  | list xs => exact key xs none
  | tuple xs => exact key xs none
  | seq xs => exact key xs none
  | seqNoLen xs => exact key xs none
  | iter xs f => exact key xs f
  | notIterable => exact ⟨fun _ => trivial, fun _ => ⟨rfl, rfl⟩⟩

/-! ### pop -/

theorem pop_exact (cfg : Cfg) (strict : Bool) (s : S) (a : Option Arg) (hf : AllFits .i32 s.vals) :
    Agrees (view (pop cfg s a)) (Spec.step 32 s.vals (.pop a)) ↔ Exact cfg strict s.vals (.pop a) := by
  cases a with
  | none =>
    rw [pop_view]
    exact ArrayList.pop_exact cfg .i32 s.vals none hf
  | some a =>
    cases hg : s.vals.getLast? with
    | none =>
      have hl : s.vals = [] := List.getLast?_eq_none_iff.1 hg
      have e : view (pop cfg s (some a)) = .exc s.vals .indexError := by simp only [pop, hg]; rfl
      rw [e, hl]
      simp only [Spec.step, List.length_nil, ArrayList.position_zero, Exact]
      cases a with
      | other => simp [Spec.word, Agrees]
      | index v | int v =>
        by_cases h64 : FitsS 64 v
        · simp [Spec.word, Agrees, if_pos (show Spec.InRange 64 v from h64), h64]
        · simp [Spec.word, Agrees, if_neg (show ¬ Spec.InRange 64 v from h64), h64]
    | some x =>
      have hl : s.vals ≠ [] := by intro h; rw [h] at hg; cases hg
      cases a with
      | other =>
        simp only [pop, hg, asSsize, Spec.step, Spec.word, Exact]
        exact ⟨fun _ => hl, fun _ => ⟨rfl, rfl⟩⟩
      | index v =>
        simp only [pop, hg, asSsize, Spec.step, Spec.word, Exact, hl, false_and, iff_false]
        by_cases h64 : FitsS 64 v
        · simp only [if_pos (show Spec.InRange 64 v from h64)]
          cases Spec.position s.vals.length v <;> simp [Agrees, view, Out.mapState]
        · simp only [if_neg (show ¬ Spec.InRange 64 v from h64)]
          simp [Agrees, view, Out.mapState]
      | int v =>
        simp only [pop, hg, asSsize, Spec.step, Spec.word, Exact]
        by_cases h64 : FitsS 64 v
        · simp only [if_pos (show Spec.InRange 64 v from h64), if_pos h64]
          rw [ArrayList.position_eq, LState.length_vals]
          simp only
          generalize (if v < 0 then v + (s.size : Int) else v) = j
          by_cases hj : j < 0 ∨ j ≥ (s.size : Int)
          · rw [if_pos hj, if_pos hj]
            exact ⟨fun _ => rfl, fun _ => ⟨rfl, rfl⟩⟩
          · rw [if_neg hj, if_neg hj]
            simp only [reduceCtorEq, iff_false]
            intro h
            revert h
            cases listAt s.size j.toNat with
            | error u => exact id
            | ok p =>
              simp only
              split <;> exact id
        · simp only [if_neg (show ¬ Spec.InRange 64 v from h64), if_neg h64]
          exact ⟨fun _ => hl, fun _ => ⟨rfl, rfl⟩⟩

/-! ### Item assignment -/

theorem setItem_exact (s : S) (i : Int) (x : Arg) :
    Agrees (view (setItem s i (some x)))
      (match Spec.position s.vals.length i with
        | none => (s.vals, .error .indexError)
        | some p =>
          match Spec.elem 32 x with
          | .error e => (s.vals, .error e)
          | .ok v => (s.vals.take p ++ v :: s.vals.drop (p + 1), .ok .none)) ↔
      (Spec.position s.vals.length i ≠ none → Spec.IsElem 32 x = true) := by
  by_cases hk : Spec.IsElem 32 x = true
  · simp only [hk, implies_true, iff_true]
    rw [setItem_view s i (some x) (by
      rintro _ ⟨⟩; rw [ArrayList.toElem_isElem (K := .i32) hk])]
    rw [ArrayList.setItem_eq]
    cases Spec.position s.vals.length i with
    | none => exact ⟨rfl, rfl⟩
    | some p =>
      have h' : Spec.elem 32 x = .ok (Spec.argVal x) := by
        rw [ArrayList.elem_isElem]; exact if_pos hk
      simp only [ArrayList.toElem_isElem (K := .i32) hk, h']
      exact ⟨rfl, trivial⟩
  · simp only [hk]
    obtain ⟨e, he⟩ := ArrayList.elem_bad (b := 32) (Bool.eq_false_iff.2 hk)
    rw [he, ArrayList.position_eq, LState.length_vals]
    unfold setItem
    simp only [listAt_eq]
    rw [show (s.size : Int) + i = i + s.size from Int.add_comm _ _]
    generalize (if i < 0 then i + (s.size : Int) else i) = j
    by_cases hj : j < 0 ∨ j ≥ (s.size : Int)
    · rw [if_pos hj, if_pos hj]
      exact ⟨fun _ h => absurd rfl h, fun _ => ⟨rfl, rfl⟩⟩
    · rw [if_neg hj, if_neg hj]
      have h1 : j.toNat < s.size := by omega
      rw [show min j.toNat s.size = j.toNat by omega]
      simp only [if_pos h1]
      generalize toElem .i32 x = q
      obtain ⟨v, _ | e⟩ := q
      · simp [view, Out.mapState, Agrees]
      · simp [view, Out.mapState, Agrees]

theorem set_idx_exact (cfg : Cfg) (strict : Bool) (s : S) (a : Arg) (v : Arg ⊕ Src) :
    Agrees (view (assSubscript cfg s (.idx a) (some v))) (Spec.step 32 s.vals (.set (.idx a) v)) ↔
      Exact cfg strict s.vals (.set (.idx a) v) := by
  have key : ∀ (a : Arg) (i : Int) (x : Arg), Spec.word .indexError a = Spec.word .indexError (.int i) →
      (Agrees (view (match asSsizeIndex a with
        | (_, some e) => Out.exc s e
        | (i, none) => setItem s i (some x)))
      (match Spec.word .indexError (.int i) with
        | .error e => (s.vals, .error e)
        | .ok i =>
          match Spec.position s.vals.length i with
          | none => (s.vals, .error .indexError)
          | some p =>
            match Spec.elem 32 x with
            | .error e => (s.vals, .error e)
            | .ok v => (s.vals.take p ++ v :: s.vals.drop (p + 1), .ok .none)) ↔
      (FitsS 64 i → Spec.position s.vals.length i ≠ none → Spec.IsElem 32 x = true)) := by
    intro a i x hw
    rw [ArrayList.asSsizeIndex_eq, hw]
    by_cases h64 : FitsS 64 i
    · simp only [Spec.word, if_pos (show Spec.InRange 64 i from h64)]
      refine (setItem_exact s i x).trans ?_
      simp [h64]
    · simp only [Spec.word, if_neg (show ¬ Spec.InRange 64 i from h64)]
      exact ⟨fun _ h => absurd h h64, fun _ => ⟨rfl, rfl⟩⟩
  cases a with
  | other => exact ⟨fun h => absurd h id, fun h => absurd h id⟩
  | int i | index i =>
    cases v with
    | inl x => exact key _ i x rfl
    | inr src =>
      refine (key _ i .other rfl).trans ?_
      exact ⟨fun h h1 h2 => absurd (h h1 h2) Bool.false_ne_true, fun h h1 h2 => absurd (h h1 h2) id⟩

/-! ### Slice assignment -/

theorem set_slice_exact (cfg : Cfg) (strict : Bool) (s : S) (sl : SliceArg) (v : Arg ⊕ Src) (hf : AllFits .i32 s.vals)
    (hn : (s.vals.length : Int) ≤ ssizeMax) (hp : ArrayList.Possible .i32 (.set (.slice sl) v)) :
    Agrees (view (assSubscript cfg s (.slice sl) (some v))) (Spec.step 32 s.vals (.set (.slice sl) v)) ↔
      Exact cfg strict s.vals (.set (.slice sl) v) := by
  by_cases hq : ∃ xs, v = .inr (.seqNoLen xs)
  · obtain ⟨xs, rfl⟩ := hq
    have ha := ArrayList.set_slice_exact cfg .i32 s.vals sl (.inr (.seqNoLen xs)) hf hn hp
    refine Iff.trans ?_ ha
    cases hs : Spec.fields sl with
    | error e =>
      have h1 : view (assSubscript cfg s (.slice sl) (some (.inr (.seqNoLen xs)))) = .exc s.vals e := by
        simp only [assSubscript]
        rw [(sliceUnpack_fields sl).1, hs]
        rfl
      have h2 : ArrayList.assSubscript cfg .i32 s.vals (.slice sl) (some (.inr (.seqNoLen xs))) = .exc s.vals e := by
        simp only [ArrayList.assSubscript]
        rw [(sliceUnpack_fields sl).1, hs]
      rw [h1, h2]
      exact Iff.rfl
    | ok f =>
      obtain ⟨i, j, k⟩ := f
      by_cases hk : k = 1
      · subst hk
        have h2 := (ArrayList.slice_bounds cfg .i32 s.vals sl (.seqNoLen xs) hn hs rfl).2.2.2 rfl
        refine iff_of_false ?_ (h2 _)
        intro h
        simp only [assSubscript] at h
        rw [(sliceUnpack_fields sl).1, hs] at h
        simp only at h
        have hc1 : (if clampSsize 1 < -ssizeMax then -ssizeMax else clampSsize 1) = 1 := by decide
        rw [hc1] at h
        generalize hadj : adjustIndices _ _ _ _ = adj at h
        obtain ⟨start, stop, cnt⟩ := adj
        obtain ⟨-, -, -, -, hcnt⟩ := adjust_one hadj
        have hm : ArrayList.srcSize s.vals (.seqNoLen xs) = -1 := rfl
        simp only [hm, Src.isSequence, Bool.not_true, Bool.false_eq_true, if_false, ne_eq,
          not_true_eq_false] at h
        revert h
        cases listAt s.size start.toNat with
        | error u => exact id
        | ok p =>
          simp only
          rw [if_neg (show ¬ (-1 : Int) = cnt by omega), if_pos (show (-1 : Int) < cnt by omega)]
          simp only [show ((-1 : Int)).toNat = 0 from rfl, assignLoop]
          cases walkFwd s.size (cnt - -1).toNat (p + 0) with
          | error u => exact id
          | ok q =>
            simp only
            rw [if_pos (by decide)]
            exact id
      · have h1 : view (assSubscript cfg s (.slice sl) (some (.inr (.seqNoLen xs)))) =
            .exc s.vals .notImplementedError := by
          simp only [assSubscript]
          rw [(sliceUnpack_fields sl).1, hs]
          simp only
          generalize adjustIndices _ _ _ _ = adj
          obtain ⟨start, stop, cnt⟩ := adj
          simp only [Src.isSequence, Bool.not_true, Bool.false_eq_true, if_false]
          rw [if_pos (fun h => hk (ArrayList.clamp_one.1 h))]
          rfl
        rw [h1, ArrayList.slice_step cfg .i32 s.vals sl _ hs hk rfl]
        exact Iff.rfl
  · rw [assSubscript_slice_view cfg s sl (some v) (fun xs h => hq ⟨xs, Option.some.inj h⟩)]
    exact ArrayList.set_slice_exact cfg .i32 s.vals sl v hf hn hp

/-! ### *= -/

theorem two_pow_eq {k : Nat} (h : 2 ^ k = k + 1) : k ≤ 1 := by
  rcases Nat.lt_or_ge 1 k with hk | hk
  · have : ∀ d, d + 2 + 1 < 2 ^ (d + 2) := by
      intro d
      induction d with
      | zero => decide
      | succ d ih => rw [Nat.pow_succ]; omega
    have := this (k - 2)
    rw [show k - 2 + 2 = k by omega] at this
    omega
  · exact hk

theorem imul_exact (cfg : Cfg) (strict : Bool) (s : S) (n : Int) :
    Agrees (view (imul strict s n)) (Spec.step 32 s.vals (.imul n)) ↔ Exact cfg strict s.vals (.imul n) := by
  by_cases h1 : n ≤ 1
  · rw [imul_small strict s n h1]
    exact ⟨fun _ => .inl h1, fun _ => ⟨rfl, trivial⟩⟩
  · have hd : ∃ k : Nat, n = (k : Int) + 2 := ⟨(n - 2).toNat, by omega⟩
    obtain ⟨k, rfl⟩ := hd
    simp only [Exact, h1, false_or, Spec.step]
    have e : imul strict s ((k : Int) + 2) = (match imulLoop strict (k + 1) s with
        | .error u => .ub u
        | .ok s' => .ok s' .self) := by
      unfold imul
      dsimp only
      rw [if_neg (by omega), if_neg (by omega), show ((k : Int) + 2).toNat - 1 = k + 1 by omega]
      rfl
    rw [e]
    cases strict with
    | true =>
      rw [imulLoop]
      exact ⟨fun h => absurd h id, fun h => absurd h.1 (by decide)⟩
    | false =>
      obtain ⟨s', h2, h3⟩ := imulLoop_double (k + 1) s
      rw [h2]
      have hc : Spec.copies s.vals ((k : Int) + 2) = (List.replicate (k + 2) s.vals).flatten := by
        unfold Spec.copies
        rw [show ((k : Int) + 2).toNat = k + 2 by omega]
      show (s'.vals = _ ∧ True) ↔ _
      rw [h3, hc]
      simp only [and_true, true_and]
      have hlen : ∀ m, (List.replicate m s.vals).flatten.length = m * s.vals.length := by
        intro m; simp
      constructor
      · intro h
        by_cases hl : s.vals = []
        · exact .inr hl
        · left
          have := congrArg List.length h
          rw [hlen, hlen] at this
          have hpos : 0 < s.vals.length := List.length_pos_iff.2 hl
          have := two_pow_eq (Nat.eq_of_mul_eq_mul_right hpos this)
          omega
      · rintro (h | h)
        · obtain rfl : k = 0 := by omega
          rfl
        · rw [h]; simp

/-! ### Comparison -/

theorem boolOut_agrees {s : S} {q : Bool × Option Exc} {b : Bool} :
    Agrees (view (boolOut s q.1 q.2)) (s.vals, .ok (.bool b)) ↔ q = (b, none) := by
  obtain ⟨c, _ | e⟩ := q
  · simp [boolOut, view, Out.mapState, Agrees, RetIs]
  · simp [boolOut, view, Out.mapState, Agrees]

theorem boolOut_error {s : S} {c : Bool} {p : Option Exc} {e : Exc} :
    ¬ Agrees (view (boolOut s c p)) (s.vals, .error e) := by
  cases p <;> exact id

theorem rebox_seen (cfg : Cfg) {v : Int} (hv : FitsS 32 v) : rebox .i32 cfg.py v = (seen cfg v, none) := by
  obtain ⟨h1, -, h3⟩ := ArrayList.rebox_split cfg .i32 (v := v) hv
  unfold seen
  split
  · next h => rw [h1, h3.2 h]
  · next h =>
    unfold ReadBack at h
    refine rebox_negative cfg (fun hp => h (.inr (.inl hp))) hv ?_ ?_
    · refine Int.lt_of_not_ge fun h0 => h (.inr (.inr (.inl h0)))
    · exact fun h0 => h (.inr (.inr (.inr h0)))

theorem map_seen (cfg : Cfg) {w : List Int} (hw : AllFits .i32 w) :
    w.map (rebox .i32 cfg.py) = (w.map (seen cfg)).map fun y => (y, none) := by
  rw [List.map_map]
  exact List.map_congr_left fun x hx => rebox_seen cfg (hw x hx)

/-- `==` with the elements of a list of the class. -/
theorem eq_seen (cfg : Cfg) (s : S) {src : Src} {w : List Int} (hw : AllFits .i32 w)
    (hs : cmpItems cfg s src = some (w.map (rebox .i32 cfg.py))) (hq : ∀ xs, src ≠ .seqNoLen xs) :
    eq cfg s src = (decide (s.vals = w.map (seen cfg)), none) := by
  have e : eq cfg s src = (match cmpItems cfg s src with
    | none => (false, none)
    | some ys => if ys.length ≠ s.size then (false, none) else ArrayList.eqLoop s.vals ys) := by
    cases src with
    | seqNoLen xs => exact absurd rfl (hq xs)
    | _ => rfl
  rw [e, hs, map_seen cfg hw]
  simp only [List.length_map]
  by_cases hl : w.length = s.size
  · rw [if_neg (by simpa using hl)]
    exact ArrayList.eqLoop_vals _ _ (by simpa using hl)
  · rw [if_pos hl]
    have : s.vals ≠ w.map (seen cfg) := by
      intro h
      have := congrArg List.length h
      rw [LState.length_vals, List.length_map] at this
      exact hl this.symm
    simp [this]

/-- The order loop on items of the same number, without exceptions. -/
theorem ordLoop_out (op : CmpOp) (hop : op = .lt ∨ op = .le ∨ op = .gt ∨ op = .ge) (s : S) (w r : List Int)
    (hl : s.vals.length = w.length) (hr : s.vals.length = r.length) :
    Agrees (view (match ArrayList.ordLoop op s.vals (w.map fun y => (y, none)) none with
        | (some b, p) => boolOut s b p
        | (none, p) => boolOut s false p)) (s.vals, .ok (.bool (Spec.compare op s.vals r))) ↔ OrdAs op s.vals w r := by
  rw [ordLoop_spec op hop _ _ hl]
  unfold OrdAs
  rw [if_neg (show ¬ (s.vals.length ≠ r.length) from fun h => h hr)]
  by_cases h : s.vals = w
  · rw [if_pos h, if_pos h]
    refine (boolOut_agrees (q := (false, none))).trans ?_
    rw [Prod.mk.injEq, and_iff_left rfl]
    exact eq_comm
  · rw [if_neg h, if_neg h]
    refine (boolOut_agrees (q := (Spec.compare op s.vals w, none))).trans ?_
    rw [Prod.mk.injEq, and_iff_left rfl]

theorem ord_seen (cfg : Cfg) (op : CmpOp) (hop : op = .lt ∨ op = .le ∨ op = .gt ∨ op = .ge) (s : S) {src : Src}
    {w : List Int} (hw : AllFits .i32 w)
    (hs : cmpItems cfg s src = some (w.map (rebox .i32 cfg.py))) (hq : ∀ xs, src ≠ .seqNoLen xs) :
    Agrees (view (ord cfg op s src)) (s.vals, .ok (.bool (Spec.compare op s.vals w))) ↔
      OrdAs op s.vals (w.map (seen cfg)) w := by
  have e : ord cfg op s src = (match cmpItems cfg s src with
    | none => .ok s (.bool false)
    | some ys =>
      if s.size ≠ ys.length then .ok s (.bool (decide (s.size < ys.length)))
      else
        match ArrayList.ordLoop op s.vals ys none with
        | (some b, p) => boolOut s b p
        | (none, p) => boolOut s false p) := by
    cases src with
    | seqNoLen xs => exact absurd rfl (hq xs)
    | _ => rfl
  rw [e, hs, map_seen cfg hw]
  simp only [List.length_map]
  by_cases hl : s.size = w.length
  · rw [if_neg (by simpa using hl)]
    exact ordLoop_out op hop s _ w (by simpa using hl) (by simpa using hl)
  · rw [if_pos hl]
    unfold OrdAs
    rw [LState.length_vals, if_pos hl]
    exact ⟨fun h => h.2.symm, fun h => ⟨rfl, h.symm⟩⟩

theorem ord_list_exact (cfg : Cfg) (op : CmpOp) (hop : op = .lt ∨ op = .le ∨ op = .gt ∨ op = .ge) (s : S) (r : List Int)
    (hf : AllFits .i32 s.vals) :
    Agrees (view (ord cfg op s (.list (r.map .int)))) (s.vals, .ok (.bool (Spec.compare op s.vals r))) ↔
      LookedAt s.vals r ∧ OrdAs op s.vals (r.map (lowBits .i32)) r := by
  have e : ord cfg op s (.list (r.map .int)) =
      (if s.size ≠ r.length then .ok s (.bool (decide (s.size < r.length)))
      else
        match ArrayList.ordLoop op s.vals ((r.map .int).map (toElem .i32)) none with
        | (some b, p) => boolOut s b p
        | (none, p) => boolOut s false p) := by
    simp only [ord, cmpItems, List.length_map]
    rfl
  rw [e]
  by_cases hl : s.size = r.length
  · rw [if_neg (by simpa using hl)]
    have hc := ArrayList.ordLoop_clean .i32 op s.vals r hf
    have hL : LookedAt s.vals r ↔ (ArrayList.ordLoop op s.vals ((r.map .int).map (toElem .i32)) none).2 = none := by
      rw [hc]
      unfold LookedAt
      constructor
      · intro h i hi _ hj; exact h (by simpa using hl) i hi hj
      · intro h _ i hi hj
        exact h i hi (by rw [LState.length_vals] at hi; omega) hj
    rw [hL]
    by_cases h : (ArrayList.ordLoop op s.vals ((r.map .int).map (toElem .i32)) none).2 = none
    · simp only [h, true_and]
      rw [ArrayList.ordLoop_low .i32 op s.vals r h]
      exact ordLoop_out op hop s _ r (by simpa using hl) (by simpa using hl)
    · simp only [h, false_and, iff_false]
      generalize ArrayList.ordLoop op s.vals ((r.map .int).map (toElem .i32)) none = q at h ⊢
      obtain ⟨b | b, p⟩ := q
      · intro h'; exact h (congrArg Prod.snd ((boolOut_agrees (q := (false, p))).1 h'))
      · intro h'; exact h (congrArg Prod.snd ((boolOut_agrees (q := (b, p))).1 h'))
  · rw [if_pos hl]
    have hL : LookedAt s.vals r := fun h => absurd (by simpa using h) hl
    unfold OrdAs
    rw [LState.length_vals, if_pos hl]
    simp only [hL, true_and]
    exact ⟨fun h => h.2.symm, fun h => ⟨rfl, h.symm⟩⟩

/-- With a list, tuple or other sequence, `==` is that of the array list. -/
theorem eq_items (cfg : Cfg) (s : S) (xs : List Arg) :
    eq cfg s (.list xs) = ArrayList.eq .i32 s.vals (.list xs) ∧
    eq cfg s (.tuple xs) = ArrayList.eq .i32 s.vals (.list xs) ∧
    eq cfg s (.seq xs) = ArrayList.eq .i32 s.vals (.list xs) := by
  have : ArrayList.eq .i32 s.vals (.list xs) =
      if (xs.map (toElem .i32)).length ≠ s.size then (false, none) else ArrayList.eqLoop s.vals (xs.map (toElem .i32)) := by
    simp only [ArrayList.eq, LState.length_vals, List.length_map]
  rw [this]
  exact ⟨rfl, rfl, rfl⟩

theorem bool_iff {p q : Prop} [Decidable p] [Decidable q] : decide p = decide q ↔ (p ↔ q) := by
  by_cases hp : p <;> by_cases hq : q <;> simp [hp, hq]

theorem self_seen (cfg : Cfg) (l : List Int) : l = l.map (seen cfg) ↔ ∀ x ∈ l, ReadBack cfg .i32 x := by
  have : l = l.map (seen cfg) ↔ ∀ x ∈ l, seen cfg x = x := by
    rw [eq_comm]
    conv => lhs; rhs; rw [← List.map_id l]
    rw [List.map_inj_left]
    exact Iff.rfl
  rw [this]
  refine forall₂_congr fun x _ => ?_
  unfold seen
  split
  · next h => simp [h]
  · next h =>
    simp only [h, iff_false]
    intro hx
    exact h (.inr (.inr (.inl (by omega))))

theorem cmp_exact (cfg : Cfg) (strict : Bool) (s : S) (op : CmpOp) (src : Src) (hf : AllFits .i32 s.vals)
    (hp : ArrayList.Src.Possible .i32 src) :
    Agrees (view (compare cfg op s src)) (Spec.step 32 s.vals (.cmp op src)) ↔ Exact cfg strict s.vals (.cmp op src) := by
  have hord : ∀ op : CmpOp, (op = .lt ∨ op = .le ∨ op = .gt ∨ op = .ge) → ∀ xs,
      (Agrees (view (ord cfg op s (.list xs)))
        (s.vals, match Spec.allInts xs with
          | some r => .ok (.bool (Spec.compare op s.vals r))
          | none => .error .typeError)) ↔
        (match Spec.allInts xs with
          | none => False
          | some r => LookedAt s.vals r ∧ OrdAs op s.vals (r.map (lowBits .i32)) r) := by
    intro op hop xs
    cases hr : Spec.allInts xs with
    | none =>
      simp only [iff_false, ord, cmpItems]
      split
      · exact id
      · split <;> exact boolOut_error
    | some r =>
      obtain rfl := ArrayList.allInts_some hr
      exact ord_list_exact cfg op hop s r hf
  have hitems : ∀ (op : CmpOp) (ys : List CRes) (e : Exc), ¬ Agrees (view (
      if s.size ≠ ys.length then .ok s (.bool (decide (s.size < ys.length)))
      else
        match ArrayList.ordLoop op s.vals ys none with
        | (some b, p) => boolOut s b p
        | (none, p) => boolOut s false p)) (s.vals, .error e) := by
    intro op ys e
    split
    · exact id
    · split <;> exact boolOut_error
  cases src with
  | same w =>
    have hs : cmpItems cfg s (.same w) = some (w.map (rebox .i32 cfg.py)) := rfl
    have he := eq_seen cfg s (src := .same w) hp hs (by simp)
    cases op with
    | eq =>
      simp only [compare, Spec.step, Spec.cmp, Exact]
      rw [boolOut_agrees, he]
      simp only [Spec.compare, Prod.mk.injEq, and_true]
      exact bool_iff
    | ne =>
      simp only [compare, Spec.step, Spec.cmp, Exact]
      rw [boolOut_agrees (q := (!(eq cfg s (.same w)).1, (eq cfg s (.same w)).2)), he]
      simp only [Spec.compare, Prod.mk.injEq, and_true, ← decide_not]
      exact bool_iff.trans Decidable.not_iff_not
    | lt | le | gt | ge => exact ord_seen cfg _ (by simp) s hp hs (by simp)
  | self =>
    have hs : cmpItems cfg s .self = some (s.vals.map (rebox .i32 cfg.py)) := rfl
    have he := eq_seen cfg s (src := .self) hf hs (by simp)
    cases op with
    | eq =>
      simp only [compare, Spec.step, Spec.cmp, Exact]
      rw [boolOut_agrees, he, ← self_seen]
      simp [Spec.compare]
    | ne =>
      simp only [compare, Spec.step, Spec.cmp, Exact]
      rw [boolOut_agrees (q := (!(eq cfg s .self).1, (eq cfg s .self).2)), he, ← self_seen]
      simp [Spec.compare]
    | lt | le | gt | ge => exact ord_seen cfg _ (by simp) s hf hs (by simp)
  | iter xs f =>
    cases op with
    | eq | ne => exact ⟨fun _ => trivial, fun _ => ⟨rfl, rfl⟩⟩
    | lt | le | gt | ge => exact ⟨fun h => absurd h id, fun h => absurd h id⟩
  | notIterable =>
    cases op with
    | eq | ne => exact ⟨fun _ => trivial, fun _ => ⟨rfl, rfl⟩⟩
    | lt | le | gt | ge => exact ⟨fun h => absurd h id, fun h => absurd h id⟩
  | seqNoLen xs =>
    cases op with
    | eq | ne => exact ⟨fun h => absurd h id, fun h => absurd h id⟩
    | lt | le | gt | ge => exact ⟨fun _ => trivial, fun _ => ⟨rfl, rfl⟩⟩
  | tuple xs =>
    cases op with
    | eq =>
      simp only [compare, (eq_items cfg s xs).2.1]
      exact boolOut_agrees.trans (ArrayList.eq_false_exact .i32 s.vals xs hf)
    | ne =>
      simp only [compare, (eq_items cfg s xs).2.1]
      exact (boolOut_agrees (q := (_, _))).trans
        (ArrayList.not_pair.trans (ArrayList.eq_false_exact .i32 s.vals xs hf))
    | lt | le | gt | ge => exact ⟨fun h => absurd h (hitems _ _ _), fun h => absurd h id⟩
  | seq xs =>
    cases op with
    | eq =>
      simp only [compare, (eq_items cfg s xs).2.2]
      exact boolOut_agrees.trans (ArrayList.eq_false_exact .i32 s.vals xs hf)
    | ne =>
      simp only [compare, (eq_items cfg s xs).2.2]
      exact (boolOut_agrees (q := (_, _))).trans
        (ArrayList.not_pair.trans (ArrayList.eq_false_exact .i32 s.vals xs hf))
    | lt | le | gt | ge => exact ⟨fun h => absurd h (hitems _ _ _), fun h => absurd h id⟩
  | list xs =>
    cases op with
    | eq =>
      refine Iff.trans ?_ (ArrayList.eq_list_exact .i32 s.vals xs hf)
      simp only [Spec.step, Spec.cmp, compare, (eq_items cfg s xs).1]
      cases Spec.allInts xs with
      | none => exact boolOut_agrees
      | some r => exact boolOut_agrees
    | ne =>
      refine Iff.trans ?_ (ArrayList.eq_list_exact .i32 s.vals xs hf)
      simp only [Spec.step, Spec.cmp, compare, (eq_items cfg s xs).1]
      cases Spec.allInts xs with
      | none => exact (boolOut_agrees (q := (_, _))).trans ArrayList.not_pair
      | some r =>
        refine (boolOut_agrees (q := (_, _))).trans (ArrayList.not_pair.trans ?_)
        simp [Spec.compare]
    | lt | le | gt | ge =>
      refine Iff.trans ?_ (hord _ (by simp) xs)
      simp only [Spec.step, Spec.cmp, compare]
      cases Spec.allInts xs <;> exact Iff.rfl

/-- The domain is exact. -/
theorem step_exact (cfg : Cfg) (strict : Bool) (s : S) (op : Op) (hf : AllFits .i32 s.vals)
    (hn : (s.vals.length : Int) ≤ ssizeMax) (hp : Possible op) :
    Agrees (view (step cfg strict s op)) (Spec.step 32 s.vals op) ↔ Exact cfg strict s.vals op := by
  have arr : ∀ op, ArrayList.Possible .i32 op → view (step cfg strict s op) = ArrayList.step cfg .i32 s.vals op →
      (Agrees (view (step cfg strict s op)) (Spec.step 32 s.vals op) ↔ ArrayList.Exact cfg .i32 s.vals op) := by
    intro op hp h
    rw [h]
    exact ArrayList.step_exact cfg .i32 s.vals op hf hn hp
  have ok : ∀ op, OpOk cfg s.vals op → Exact cfg strict s.vals op →
      (Agrees (view (step cfg strict s op)) (Spec.step 32 s.vals op) ↔ Exact cfg strict s.vals op) :=
    fun op h1 h2 => ⟨fun _ => h2, fun _ => step_agrees cfg strict s op hf h1⟩
  cases op with
  | append a => exact append_exact s a
  | extend src => exact extend_exact cfg strict s src hf hp
  | iadd src => exact iadd_exact cfg strict s src hf hp
  | insert i a => exact arr (.insert i a) hp (insert_view s i a)
  | pop a => exact pop_exact cfg strict s a hf
  | remove a => exact arr (.remove a) hp (remove_view s a)
  | index a i j => exact arr (.index a i j) hp (index_view s a i j)
  | count a => exact arr (.count a) hp (count_view s a)
  | contains a => exact arr (.contains a) hp (contains_view s a)
  | get k =>
    have := arr (.get k) hp (subscript_view cfg s k)
    cases k <;> exact this
  | set k v =>
    cases k with
    | idx a => exact set_idx_exact cfg strict s a v
    | slice sl => exact set_slice_exact cfg strict s sl v hf hn hp
  | del k =>
    cases k with
    | idx a => exact arr (.del (.idx a)) hp (assSubscript_idx_view cfg s a none (by rintro _ ⟨⟩))
    | slice sl => exact arr (.del (.slice sl)) hp (assSubscript_slice_view cfg s sl none (by rintro xs ⟨⟩))
  | add src => exact arr (.add src) hp (by cases src <;> rfl)
  | mul n => exact ok (.mul n) trivial trivial
  | rmul a => exact ok (.rmul a) trivial trivial
  | imul n => exact imul_exact cfg strict s n
  | cmp op src => exact cmp_exact cfg strict s op src hf hp
  | reverse => exact ok .reverse trivial trivial
  | resize a => exact absurd hp id
  | clear => exact ok .clear trivial trivial
  | copy => exact ok .copy trivial trivial
  | toList => exact arr .toList hp rfl
  | len => exact ok .len trivial trivial
  | repr => exact ok .repr trivial trivial

theorem history_exact (cfg : Cfg) (strict : Bool) : ∀ (ops : List Op) (s : S), AllFits .i32 s.vals →
    ArrayList.Short 32 s.vals ops → AllPossible ops →
    (AgreesAll ((run cfg strict s ops).map view) (Spec.run 32 s.vals ops) ↔ HistoryExact cfg strict s.vals ops)
  | [], s, _, _, _ => ⟨fun _ => trivial, fun _ => trivial⟩
  | op :: ops, s, hf, hs, hp => by
    have h1 := step_exact cfg strict s op hf hs.1 (hp op (List.mem_cons_self ..))
    rw [run, Spec.run, List.map_cons, AgreesAll, HistoryExact, h1]
    refine and_congr_right fun h => ?_
    have hst := ArrayList.agrees_state (h1.2 h)
    obtain ⟨s', h2, h3⟩ : ∃ s', (step cfg strict s op).state? = some s' ∧ s'.vals = (Spec.step 32 s.vals op).1 := by
      revert hst
      cases step cfg strict s op with
      | ok s' r => intro hst; exact ⟨s', rfl, Option.some.inj hst⟩
      | exc s' e => intro hst; exact ⟨s', rfl, Option.some.inj hst⟩
      | pending s' r e => intro hst; exact ⟨s', rfl, Option.some.inj hst⟩
      | ub u => intro hst; cases hst
    rw [h2]
    have ih := history_exact cfg strict ops s' (by rw [h3]; exact ArrayList.spec_fits .i32 s.vals op hf)
      (by rw [h3]; exact hs.2) (fun o ho => hp o (List.mem_cons_of_mem _ ho))
    rw [h3] at ih
    exact ih

end Verif.LinkedList
