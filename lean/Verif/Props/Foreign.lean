import Verif.Lemmas.Foreign

/-!
# C55: Python code that runs inside a call may raise or use the list

Arguments, iterators and sequences of user classes run Python code in the middle of a call of an int array list.
`Foreign.after` (Spec/Foreign.lean) says what is expected: the code of the arguments runs, then the call is carried out, as
`ArrayList.step` does for plain ints (C03 and others say what that is), on the list that the code left.
-/

namespace Verif.Props

open Verif.ArrayList Verif.Foreign

/-- `append`, `remove` and `count`, whatever the code of the argument does to the list. -/
theorem C55_value_arguments (cfg : Cfg) (K : Kind) (l : List Int) (x : Live) :
    Foreign.append K l x = after x fine l (fun l v => step cfg K l (.append (.index v))) ∧
    Foreign.remove K l x = after x fine l (fun l v => step cfg K l (.remove (.index v))) ∧
    Foreign.count K l x = after x fine l (fun l v => step cfg K l (.count (.index v))) := by
  rcases hx : x.run l with ⟨l', e | v⟩
  · simp [Foreign.append, Foreign.remove, Foreign.count, after, conv, hx]
  · simp only [Foreign.append, Foreign.remove, Foreign.count, after, conv, fine, hx, step, ArrayList.append,
      ArrayList.remove, ArrayList.count]
    refine ⟨?_, ?_, rfl⟩ <;> rcases toElem K (.index v) with ⟨w, e⟩ <;> cases e <;> rfl

/-- `l[i]` and `del l[i]`. -/
theorem C55_index_arguments (cfg : Cfg) (K : Kind) (l : List Int) (i : Live) :
    Foreign.get cfg K l i = after i fine l (fun l v => step cfg K l (.get (.idx (.index v)))) ∧
    Foreign.del l i = after i fine l (fun l v => step cfg K l (.del (.idx (.index v)))) := by
  rcases hx : i.run l with ⟨l', e | v⟩
  · simp [Foreign.get, Foreign.del, after, conv, hx]
  · simp only [Foreign.get, Foreign.del, after, conv, fine, hx, step, subscript, assSubscript]
    constructor <;> rcases asSsizeIndex (.index v) with ⟨w, e⟩ <;> cases e <;> rfl

/-- `insert`: the code of the position runs first; a position beyond 64 bits is refused before the code of the value. -/
theorem C55_insert (cfg : Cfg) (K : Kind) (l : List Int) (i x : Live) :
    Foreign.insert K l i x =
      after i (unlessFits 64 .overflowError) l fun l i => after x fine l fun l v =>
        step cfg K l (.insert (.index i) (.index v)) := by
  rcases h1 : i.run l with ⟨l1, e | j⟩
  · simp [Foreign.insert, after, conv, h1]
  have hj : parseN (.index j) = if FitsS 64 j then (j, none) else (-1, some .overflowError) := rfl
  have hu : unlessFits 64 .overflowError j = if FitsS 64 j then none else some .overflowError := rfl
  by_cases hf : FitsS 64 j
  · rw [if_pos hf] at hj hu
    rcases h2 : x.run l1 with ⟨l2, e | v⟩
    · simp [Foreign.insert, after, conv, h1, h2, hj, hu]
    · simp only [Foreign.insert, after, conv, fine, h1, h2, hj, hu, step, ArrayList.insert]
      rcases parseElem K (.index v) with ⟨w, e⟩
      cases e <;> rfl
  · rw [if_neg hf] at hj hu
    simp [Foreign.insert, after, conv, h1, hj, hu]

/-- `index(x, start, stop)`. -/
theorem C55_index (cfg : Cfg) (K : Kind) (l : List Int) (x start stop : Live) :
    Foreign.index K l x (some start) (some stop) =
      after x (unlessFits K.bits .overflowError) l fun l v =>
      after start (unlessFits 64 .overflowError) l fun l i =>
      after stop fine l fun l j => step cfg K l (.index (.index v) (some (.index i)) (some (.index j))) := by
  rcases h1 : x.run l with ⟨l1, e | v⟩
  · simp [Foreign.index, after, conv, h1]
  have hv : parseElem K (.index v) = if FitsS K.bits v then (v, none) else (-1, some .overflowError) := by
    cases K <;> rfl
  have hu : unlessFits K.bits .overflowError v = if FitsS K.bits v then none else some .overflowError := rfl
  by_cases hf : FitsS K.bits v
  · rw [if_pos hf] at hv hu
    rcases h2 : start.run l1 with ⟨l2, e | j⟩
    · simp [Foreign.index, convOr, after, conv, h1, h2, hv, hu]
    have hj : parseN (.index j) = if FitsS 64 j then (j, none) else (-1, some .overflowError) := rfl
    have hw : unlessFits 64 .overflowError j = if FitsS 64 j then none else some .overflowError := rfl
    by_cases hg : FitsS 64 j
    · rw [if_pos hg] at hj hw
      rcases h3 : stop.run l2 with ⟨l3, e | m⟩
      · simp [Foreign.index, convOr, after, conv, h1, h2, h3, hv, hu, hj, hw]
      · simp only [Foreign.index, convOr, after, conv, fine, h1, h2, h3, hv, hu, hj, hw, step, ArrayList.index]
        rcases parseN (.index m) with ⟨w, e⟩
        cases e <;> rfl
    · rw [if_neg hg] at hj hw
      simp [Foreign.index, convOr, after, conv, h1, h2, hv, hu, hj, hw]
  · rw [if_neg hf] at hv hu
    simp [Foreign.index, after, conv, h1, hv, hu]

/-- `l[i:j:k]`: the code of the step runs first (a step of zero is refused at once), then start, then stop. -/
theorem C55_slice (cfg : Cfg) (K : Kind) (l : List Int) (s : LSlice) :
    Foreign.getSlice cfg K l s =
      afterOpt s.step zeroStep l fun l c => afterOpt s.start fine l fun l a => afterOpt s.stop fine l fun l b =>
        step cfg K l (.get (.slice ⟨a, b, c⟩)) := by
  have rest : ∀ (l : List Int) (c : Option Arg),
      (match field s.start l with
        | (l, .error e) => (.exc l e : LOut)
        | (l, .ok a) =>
          match field s.stop l with
          | (l, .error e) => .exc l e
          | (l, .ok b) => step cfg K l (.get (.slice ⟨a, b, c⟩))) =
      afterOpt s.start fine l fun l a => afterOpt s.stop fine l fun l b => step cfg K l (.get (.slice ⟨a, b, c⟩)) := by
    intro l c
    have hstop : ∀ (l : List Int) (a : Option Arg),
        (match field s.stop l with
          | (l, .error e) => (.exc l e : LOut)
          | (l, .ok b) => step cfg K l (.get (.slice ⟨a, b, c⟩))) =
        afterOpt s.stop fine l fun l b => step cfg K l (.get (.slice ⟨a, b, c⟩)) := by
      intro l a
      cases s.stop with
      | none => rfl
      | some x =>
        simp only [field, afterOpt, after, fine]
        rcases x.run l with ⟨l', r⟩
        cases r <;> rfl
    cases s.start with
    | none => exact hstop l none
    | some x =>
      simp only [field, afterOpt, after, fine]
      rcases x.run l with ⟨l', r⟩
      cases r with
      | error e => rfl
      | ok v => exact hstop l' (some (.index v))
  have code : Foreign.getSlice cfg K l s =
      match field s.step l with
      | (l, .error e) => (.exc l e : LOut)
      | (l, .ok c) =>
        match sliceStep c with
        | .error e => .exc l e
        | .ok _ =>
          match field s.start l with
          | (l, .error e) => .exc l e
          | (l, .ok a) =>
            match field s.stop l with
            | (l, .error e) => .exc l e
            | (l, .ok b) => step cfg K l (.get (.slice ⟨a, b, c⟩)) := by
    unfold Foreign.getSlice unpack
    rcases field s.step l with ⟨l1, _ | c⟩
    · rfl
    · dsimp only
      rcases sliceStep c with _ | _
      · rfl
      · dsimp only
        rcases field s.start l1 with ⟨l2, _ | a⟩
        · rfl
        · dsimp only
          rcases field s.stop l2 with ⟨l3, _ | b⟩
          · rfl
          · simp only [step, subscript]
            rcases sliceUnpack ⟨a, b, c⟩ with _ | ⟨_, _, _⟩ <;> rfl
  rw [code]
  cases s.step with
  | none => exact rest l none
  | some x =>
    simp only [field, afterOpt, after]
    rcases x.run l with ⟨l', r⟩
    cases r with
    | error e => rfl
    | ok v =>
      dsimp only
      by_cases hv : v = 0
      · rw [(sliceStep_index v).1 hv]
        simp only [zeroStep, hv, if_true]
      · obtain ⟨w, hw⟩ := (sliceStep_index v).2 hv
        rw [hw]
        simp only [zeroStep, hv, if_false]
        exact rest l' (some (.index v))

/-- `extend` and `+=` append what the iterator yields, one item after the other, to the list as it is by then, whatever
the iterator and the conversions of the items do to it; the items before an exception stay. -/
theorem C55_extend (cfg : Cfg) (K : Kind) (r : Ret) (l : List Int) (hint : List Int → List Int) (f : Feed) :
    Foreign.extend K r l hint f = pour (fun l v => step cfg K l (.append (.index v))) r (hint l) f := by
  unfold Foreign.extend
  generalize hint l = l0
  induction f generalizing l0 with
  | done g => rfl
  | fail g e => rfl
  | item g x k ih =>
    simp only [Foreign.extendLoop, pour, after, conv, fine, step, ArrayList.append]
    rcases x.run (g l0) with ⟨l', r'⟩
    cases r' with
    | error e => rfl
    | ok v =>
      dsimp only
      rcases toElem K (.index v) with ⟨w, e⟩
      cases e with
      | some e => rfl
      | none => exact ih l0 (l' ++ [w])

/-- `l[i] = x` stores at the position that `i` had before the code of `x` ran, if the list still has it. Missing: the list
may have been shortened (`C55_setitem_negation`). -/
theorem C55_setitem_partial (K : Kind) (l l' : List Int) (i v w : Int) (x : Live) (p : Nat) (hf : FitsS 64 i)
    (hp : p < l.length) (hi : i = p ∨ i = (p : Int) - l.length) (hx : x.run l = (l', .ok v)) (hv : FitsS 64 v)
    (hw : w = wrapS K.bits v) (hl : p < l'.length) :
    Foreign.set K l (.of i) x = .ok (l'.set p w) .none := by
  have h1 : asSsizeIndex (.index i) = (i, none) := by simp [asSsizeIndex, hf]
  have h2 : toElem K (.index v) = (w, none) := by simp [toElem, asLong, hv, hw]
  have h3 : (if i < 0 then (l.length : Int) + i else i) = p := by split_ifs <;> omega
  have h4 : ¬ ((p : Int) < 0 ∨ (p : Int) ≥ l.length) := by omega
  have h5 : conv (toElem K) x l = (l', (w, none)) := by simp only [conv, hx, h2]
  simp only [Foreign.set, conv_of, h1, h3, h4, if_false, h5, Int.toNat_natCast, hl, if_true]

/-- A value whose `__index__` empties the list makes `l[i] = x` write outside of it, for every valid index of every
list. -/
theorem C55_setitem_negation (K : Kind) (l : List Int) (i v : Int) (hf : FitsS 64 i)
    (hi : -(l.length : Int) ≤ i ∧ i < l.length) (hv : FitsS 64 v) :
    Foreign.set K l (.of i) (.clearing v) = .ub .outOfBounds := by
  have h1 : asSsizeIndex (.index i) = (i, none) := by simp [asSsizeIndex, hf]
  have h2 : toElem K (.index v) = (wrapS K.bits v, none) := by simp [toElem, asLong, hv]
  have h3 : ¬ ((if i < 0 then (l.length : Int) + i else i) < 0 ∨
      (if i < 0 then (l.length : Int) + i else i) ≥ l.length) := by split_ifs <;> omega
  have h5 : conv (toElem K) (.clearing v) l = ([], (wrapS K.bits v, none)) := by simp only [conv, Live.clearing, h2]
  simp only [Foreign.set, conv_of, h1, h3, if_false, h5, List.length_nil, Nat.not_lt_zero]

/-- `l[i] = x` for arbitrary code in `i` and `x`, exactly: it writes outside of the list precisely if `i` is the valid position `p` of
the list as its code left it, and the code of `x` answers a 64-bit int and leaves the list with no more than `p` elements. -/
theorem C55_setitem_exact (K : Kind) (l : List Int) (i x : Live) (u : UB) :
    Foreign.set K l i x = .ub u ↔ u = .outOfBounds ∧
      ∃ (l1 l2 : List Int) (j v : Int) (p : Nat), i.run l = (l1, .ok j) ∧ FitsS 64 j ∧ p < l1.length ∧
        (j = p ∨ j = (p : Int) - l1.length) ∧ x.run l1 = (l2, .ok v) ∧ FitsS 64 v ∧ l2.length ≤ p := by
  simp only [Foreign.set, conv]
  rcases hi : i.run l with ⟨l1, _ | j⟩
  · simp
  · by_cases hj : FitsS 64 j
    · have h1 : asSsizeIndex (.index j) = (j, none) := by simp [asSsizeIndex, hj]
      simp only [h1]
      by_cases hr : (if j < 0 then (l1.length : Int) + j else j) < 0 ∨ (if j < 0 then (l1.length : Int) + j else j) ≥ l1.length
      · simp only [if_pos hr]
        simp only [reduceCtorEq, false_iff, not_and, not_exists]
        rintro - a b c d p e - hp hq
        cases e
        split_ifs at hr <;> omega
      · simp only [if_neg hr]
        rcases hx : x.run l1 with ⟨l2, _ | v⟩
        · simp only [reduceCtorEq, false_iff, not_and, not_exists]
          rintro - a b c d p e - hp hq e2
          cases e
          rw [hx] at e2
          cases e2
        · by_cases hv : FitsS 64 v
          · have h2 : toElem K (.index v) = (wrapS K.bits v, none) := by simp [toElem, asLong, hv]
            simp only [h2]
            obtain ⟨p, hp⟩ : ∃ p : Nat, (if j < 0 then (l1.length : Int) + j else j) = p :=
              ⟨(if j < 0 then (l1.length : Int) + j else j).toNat, by omega⟩
            rw [hp] at hr ⊢
            rw [Int.toNat_natCast]
            by_cases hl : p < l2.length
            · simp only [if_pos hl, reduceCtorEq, false_iff, not_and, not_exists]
              rintro - a b c d q e - hq1 hq2 e2 - hle
              cases e
              rw [hx] at e2
              cases e2
              split_ifs at hp <;> omega
            · simp only [if_neg hl, Out.ub.injEq]
              constructor
              · rintro rfl
                exact ⟨rfl, l1, l2, j, v, p, rfl, hj, by omega, by split_ifs at hp <;> omega, hx, hv, by omega⟩
              · rintro ⟨rfl, -⟩
                rfl
          · have h2 : ∃ w e, toElem K (.index v) = (w, some e) := by simp [toElem, asLong, hv]
            obtain ⟨w, e, h2⟩ := h2
            simp only [h2, reduceCtorEq, false_iff, not_and, not_exists]
            rintro - a b c d q e - hq1 hq2 e2 hd
            cases e
            rw [hx] at e2
            cases e2
            exact absurd hd hv
    · have h1 : ∃ w e, asSsizeIndex (.index j) = (w, some e) := by simp [asSsizeIndex, hj]
      obtain ⟨w, e, h1⟩ := h1
      simp only [h1, reduceCtorEq, false_iff, not_and, not_exists]
      rintro - a b c d p e hd
      cases e
      exact absurd hd hj

/-- The default of `stop` is out of date: if the code of `start` appends the value, `index(v, start)` does not find it,
although the call with the same arguments on the list as it is by then does. -/
theorem C55_index_negation (cfg : Cfg) (K : Kind) (l : List Int) (v : Int) (hv : FitsS K.bits v) (hl : v ∉ l) :
    Foreign.index K l (.of v) (some ⟨fun l => (l ++ [v], .ok 0)⟩) none = .exc (l ++ [v]) .valueError ∧
    step cfg K (l ++ [v]) (.index (.index v) (some (.index 0)) none) = .ok (l ++ [v]) (.int (canon l.length)) := by
  have h1 : parseElem K (.index v) = (v, none) := by cases K <;> exact if_pos hv
  have h2 : parseN (.index 0) = (0, none) := by decide
  have h3 : l.findIdx? (· == v) = none := by
    rw [List.findIdx?_eq_none_iff]
    intro y hy
    exact beq_eq_false_iff_ne.mpr fun h => hl (h ▸ hy)
  have h4 : (l ++ [v]).findIdx? (· == v) = some l.length := by
    simp [List.findIdx?_append, h3, List.findIdx?_cons]
  constructor
  · have h5 : ¬ ((l.length : Int) < 0) := by omega
    have h6 : ¬ ((l.length : Int) > ((l ++ [v]).length : Int)) := by
      simp only [List.length_append, List.length_singleton]
      omega
    have h7 : ¬ ((0 : Int) > l.length) := by omega
    have h8 : conv parseN ⟨fun l => (l ++ [v], .ok 0)⟩ l = (l ++ [v], (0, none)) := by simp only [conv, h2]
    simp only [Foreign.index, convOr, conv_of, h8, h1, Int.lt_irrefl, if_false, h5, h6, findFrom,
      Int.toNat_natCast, Int.toNat_zero, List.drop_zero, List.take_left, h3]
  · have h5 : ¬ (((l ++ [v]).length : Int) < 0) := by omega
    have h7 : ¬ ((0 : Int) > ((l ++ [v]).length : Int)) := by omega
    have h8 : ¬ (((l ++ [v]).length : Int) > ((l ++ [v]).length : Int)) := by omega
    simp only [step, ArrayList.index, h1, h2, Int.lt_irrefl, if_false, h5, h8, findFrom,
      Int.toNat_natCast, Int.toNat_zero, List.drop_zero, List.take_length, h4, Nat.zero_add]

/-- Slice assignment of a sequence whose methods never shorten the list stays inside it (whichever order the compiler
chose, `early`; if the position is computed first, the conversions must leave the list alone). Missing: code that shortens
the list (`C55_slice_assignment_negation`), and sequences whose `__len__` raises. -/
theorem C55_slice_assignment_partial (early : Bool) (K : Kind) (l : List Int) (s : LSlice) (v : Seq) (hv : v.Grows)
    (hlen : ∀ l, ∃ m, (v.len l).2 = .ok m) (he : early = true → ∀ l, (v.items l).StillItems) (u : UB) :
    Foreign.setSlice early K l s v ≠ .ub u := by
  unfold Foreign.setSlice
  rcases unpack s l with ⟨l1, _ | ⟨a, b, c⟩⟩
  · simp
  · dsimp only
    by_cases hc : c = 1
    · subst hc
      obtain ⟨h1, h2, h3, h4, h5, h6, h7⟩ := adjust_one (n := (l1.length : Int)) (a := a) (b := b) (by omega)
      rcases hadj : adjustIndices (l1.length : Int) a b 1 with ⟨st, sp, n⟩
      rw [hadj] at h1 h2 h3 h4 h5 h6 h7
      obtain ⟨m, hm⟩ := hlen l1
      have hg : _ := hv.len l1
      dsimp only at hg h1 h2 h3 h4 h5 h6 h7
      rcases hl : v.len l1 with ⟨l2, r⟩
      rw [hl] at hm hg
      dsimp only at hm hg
      subst hm
      have hf := hv.items l1
      dsimp only
      simp only [assign, ne_eq, not_true_eq_false, if_false]
      have forget_safe : ∀ k : Nat, (k : Int) ≤ n → forget (assignLoop K st.toNat k 0 l2 (v.items l1)) ≠ .ub u := by
        intro k hk
        rcases assignLoop_safe (K := K) (start := st.toNat) (n := k) (i := 0) (l := l2) hf (by omega) with
          ⟨l', f', h, _⟩ | ⟨s', e, h⟩ <;> rw [h] <;> simp [forget]
      by_cases e1 : (m : Int) = n
      · simp only [e1, if_true]
        exact forget_safe n.toNat (by omega)
      · simp only [e1, if_false]
        by_cases e2 : (m : Int) < n
        · simp only [e2, if_true, Int.toNat_natCast]
          rcases assignLoop_safe (K := K) (start := st.toNat) (n := m) (i := 0) (l := l2) hf (by omega) with
            ⟨l', f', h, hl', _⟩ | ⟨s', e, h⟩
          · rw [h]
            have : 0 ≤ st + (m : Int) ∧ st + (m : Int) ≤ sp ∧ sp ≤ l'.length := by omega
            simp only [if_pos this]
            simp
          · rw [h]
            simp [forget]
        · simp only [e2, if_false]
          rcases assignLoop_safe (K := K) (start := st.toNat) (n := n.toNat) (i := 0) (l := l2) hf (by omega) with
            ⟨l', f', h, hl', hf', hs'⟩ | ⟨s', e, h⟩
          · rw [h]
            exact insertLoop_safe hf' (fun h => hs' (he h l1)) (by omega) u
          · rw [h]
            simp [forget]
    · rcases v.len l1 with ⟨l2, _ | m⟩ <;> simp [assign, hc]

/-- A sequence of ints that leaves the list alone is assigned as a plain sequence is (C07). -/
theorem C55_slice_assignment_plain (early : Bool) (cfg : Cfg) (K : Kind) (l : List Int) (i j k : Option Int)
    (vs : List Int) :
    Foreign.setSlice early K l (.of i j k) (.of vs) =
      step cfg K l (.set (.slice ⟨i.map .index, j.map .index, k.map .index⟩) (.inr (.seq (vs.map .index)))) := by
  have hat : ∀ t, (vs.map Arg.index)[0 + t]? = vs[t]?.map Arg.index := by intro t; simp
  simp only [Foreign.setSlice, unpack_of, step, assSubscript]
  rcases sliceUnpack ⟨i.map .index, j.map .index, k.map .index⟩ with _ | ⟨a, b, c⟩
  · rfl
  · dsimp only
    have hn : 0 ≤ (adjustIndices (l.length : Int) a b 1).2.2 :=
      (adjust_one (n := (l.length : Int)) (a := a) (b := b) (by omega)).2.2.2.2.2.1
    by_cases hc : c = 1
    · subst hc
      rcases hadj : adjustIndices (l.length : Int) a b 1 with ⟨st, sp, n⟩
      rw [hadj] at hn
      dsimp only at hn
      simp only [Seq.of, assign, Src.isSequence, srcSize, List.length_map, Bool.not_true, Bool.false_eq_true, if_false, ne_eq,
        not_true_eq_false]
      have hA := fun n => assignLoop_of (cfg := cfg) (K := K) (start := st.toNat) (n := n) (i := 0) (l := l) hat
      by_cases e1 : (vs.length : Int) = n
      · simp only [e1, if_true]
        exact (hA n.toNat).1
      · simp only [e1, if_false]
        by_cases e2 : (vs.length : Int) < n
        · simp only [e2, if_true]
          have := (hA (vs.length : Int).toNat).1
          rw [← this]
          have hneg : ¬ ((vs.length : Int) < 0) := by omega
          rcases assignLoop K st.toNat (vs.length : Int).toNat 0 l (.of vs) with ⟨⟨l', f⟩, _⟩ | ⟨⟨l', f⟩, e⟩ |
            ⟨⟨l', f⟩, _, e⟩ | u <;> simp only [forget, hneg, if_false]
        · simp only [e2, if_false]
          have h := hA n.toNat
          rw [← h.1]
          have h2 := h.2
          rcases hal : assignLoop K st.toNat n.toNat 0 l (.of vs) with ⟨⟨l', f⟩, _⟩ | ⟨⟨l', f⟩, e⟩ |
            ⟨⟨l', f⟩, _, e⟩ | u <;> simp only [forget]
          rw [h2 l' f hal]
          refine insertLoop_of ?_
          intro t
          simp
    · simp [Seq.of, assign, Src.isSequence, hc]

/-- A sequence whose first `__getitem__` empties the list makes `l[:] = v` write outside of it, for every list that is not
empty. -/
theorem C55_slice_assignment_negation (early : Bool) (K : Kind) (l : List Int) (v : Int) (hl : l ≠ [])
    (hn : (l.length : Int) ≤ ssizeMax) : Foreign.setSlice early K l (.of none none none) (.clearing l.length v) = .ub .outOfBounds := by
  cases l with
  | nil => exact (hl rfl).elim
  | cons a l =>
    obtain ⟨b, hb⟩ : ∃ b, b = ssizeMax := ⟨_, rfl⟩
    rw [← hb] at hn
    have hadj := adjust_whole (n := ((a :: l).length : Int)) (by simp only [List.length_cons]; omega) hn
    have hu := unpack_whole (a :: l)
    rw [← hb] at hu
    simp only [Foreign.setSlice, hu, hadj]
    simp [Seq.clearing, assign, Foreign.assignLoop, forget]

/-- Comparing with a sequence whose methods never shorten the list reads only elements of the list; for `!=` if fetching
an item never fails. Missing: code that shortens the list (`C55_compare_negation`), `!=` with a `__getitem__` that raises
(`C55_ne_negation`). -/
theorem C55_compare_partial (K : Kind) (op : CmpOp) (l : List Int) (v : Seq) (hv : v.Grows)
    (hne : op = .ne → ∀ l, (v.items l).Endless) (u : UB) : Foreign.compare K op l v ≠ .ub u := by
  have hE : ∀ u, Foreign.eq K l v ≠ .ub u := by
    intro u
    unfold Foreign.eq
    rcases v.len l with ⟨l', _ | n⟩
    · simp
    · dsimp only
      split_ifs with h
      · simp
      · exact eqLoop_safe (hv.items l) (by omega) u
  have hO : ∀ op, Foreign.ord K op l v ≠ .ub u := by
    intro op
    unfold Foreign.ord
    rcases v.len l with ⟨l', _ | n⟩
    · simp [boolOut]
    · exact ordLoop_safe (hv.items l) (by omega) u
  have hN : op = .ne → Foreign.ne K l v ≠ .ub u := by
    intro ho
    have key : (∃ l' b, Foreign.eq K l v = .ok l' (.bool b)) ∨ (∃ l' b e, Foreign.eq K l v = .pending l' (.bool b) e) ∨
        ∃ u, Foreign.eq K l v = .ub u := by
      unfold Foreign.eq
      rcases v.len l with ⟨l', _ | n⟩
      · exact .inr (.inl ⟨_, _, _, rfl⟩)
      · dsimp only
        split_ifs
        · exact .inl ⟨_, _, rfl⟩
        · exact eqLoop_answers (hne ho l)
    unfold Foreign.ne
    rcases key with ⟨l', b, h⟩ | ⟨l', b, e, h⟩ | ⟨u', h⟩
    · rw [h]; simp
    · rw [h]; simp
    · exact (hE u' h).elim
  cases op with
  | eq => exact hE u
  | ne => exact hN rfl
  | lt => exact hO .lt
  | le => exact hO .le
  | gt => exact hO .gt
  | ge => exact hO .ge

/-- Comparing with a sequence of ints that leaves the list alone is comparing with a plain sequence (C10). -/
theorem C55_compare_plain (cfg : Cfg) (K : Kind) (op : CmpOp) (l vs : List Int) :
    Foreign.compare K op l (.of vs) = step cfg K l (.cmp op (.seq (vs.map .index))) := by
  have hE : Foreign.eq K l (.of vs) = boolOut l (ArrayList.eq K l (.seq (vs.map .index))).1
      (ArrayList.eq K l (.seq (vs.map .index))).2 := by
    simp only [Foreign.eq, Seq.of, ArrayList.eq, List.length_map, List.map_map]
    by_cases h : vs.length = l.length
    · simp only [h, ne_eq, not_true_eq_false, if_false]
      have := eqLoop_of (K := K) (l := l) (n := l.length) (i := 0) (vs := vs) h (by omega)
      rw [List.drop_zero] at this
      exact this
    · simp only [ne_eq, h, not_false_eq_true, if_true]
      rfl
  have hO : ∀ op, Foreign.ord K op l (.of vs) = boolOut l (ArrayList.ord K op l (.seq (vs.map .index))).1
      (ArrayList.ord K op l (.seq (vs.map .index))).2 := by
    intro op
    simp only [Foreign.ord, Seq.of, ArrayList.ord, List.length_map, List.map_map]
    rw [ordLoop_of (vs := vs) (by omega) (by omega), List.drop_zero]
    have : (fun v => toElem K (.index v)) = toElem K ∘ Arg.index := rfl
    rw [this]
    rcases ArrayList.ordLoop op l (vs.map (toElem K ∘ Arg.index)) none with ⟨_ | b, p⟩ <;> rfl
  have hN : Foreign.ne K l (.of vs) = boolOut l (!(ArrayList.eq K l (.seq (vs.map .index))).1)
      (ArrayList.eq K l (.seq (vs.map .index))).2 := by
    unfold Foreign.ne
    rw [hE]
    rcases ArrayList.eq K l (.seq (vs.map .index)) with ⟨b, _ | e⟩ <;> rfl
  cases op with
  | eq => exact hE
  | ne => exact hN
  | lt => exact hO .lt
  | le => exact hO .le
  | gt => exact hO .gt
  | ge => exact hO .ge

/-- A sequence of the same length whose first `__getitem__` empties the list makes every comparison read outside of it. -/
theorem C55_compare_negation (K : Kind) (op : CmpOp) (l : List Int) (v : Int) (hl : l ≠ []) :
    Foreign.compare K op l (.clearing l.length v) = .ub .outOfBounds := by
  cases l with
  | nil => exact (hl rfl).elim
  | cons a l => cases op <;> simp [Foreign.compare, Foreign.eq, Foreign.ne, Foreign.ord, Seq.clearing, Foreign.eqLoop,
      Foreign.ordLoop]

/-- `l != v` follows a null pointer when `v.__getitem__` raises, for every list that is not empty. -/
theorem C55_ne_negation (K : Kind) (l : List Int) (e : Exc) (hl : l ≠ []) :
    Foreign.compare K .ne l ⟨fun l => (l, .ok l.length), fun _ => .fail id e⟩ = .ub .nullDeref := by
  cases l with
  | nil => exact (hl rfl).elim
  | cons a l => simp [Foreign.compare, Foreign.ne, Foreign.eq, Foreign.eqLoop]

/-! ## The hypotheses can be met -/

/-- An object whose `__index__` appends 7 to the list. -/
private def pushing (v : Int) : Live := ⟨fun l => (l ++ [7], .ok v)⟩

/-- A sequence of two items: `__len__` and the conversions append to the list, fetching an item inserts at its front. -/
private def busy : Seq :=
  ⟨fun l => (l ++ [9], .ok 2), fun _ => .item (fun l => 8 :: l) (pushing 1) fun _ => .item id (pushing 2) fun _ => .done id⟩

/-- An iterator that clears the list, then yields 5, then (if the list has one element by then) raises. -/
private def rude : Feed :=
  .item (fun _ => []) (.of 5) fun _ => .item (fun l => l ++ l) (.of 6) fun l =>
    if l.length = 1 then .fail id (.user 3) else .done id

example : Foreign.insert .i32 [1, 2, 3] ⟨fun l => (l.drop 1, .ok (-1))⟩ (pushing 5) = .ok [2, 3, 5, 7] .none := by decide
example : Foreign.append .i32 [1, 2, 3] ⟨fun _ => ([], .error (.user 1))⟩ = .exc [] (.user 1) := by decide
example : Foreign.get ⟨.le311, false, false, false, false⟩ .i64 [1, 2, 3] ⟨fun _ => ([4], .ok 2)⟩ =
    .exc [4] .indexError := by decide
example : Foreign.extend .i32 .none [1, 2] id rude = .exc [5, 5, 6] (.user 3) := by decide
example : Foreign.set .i32 [1, 2] (.of (-1)) (pushing 5) = .ok [1, 5, 7] .none :=
  C55_setitem_partial .i32 [1, 2] [1, 2, 7] (-1) 5 5 (pushing 5) 1 (by decide) (by decide) (by decide) rfl (by decide)
    (by decide) (by decide)

private theorem busy_grows : busy.Grows := by
  constructor
  · intro l; simp [busy]
  · intro l
    simp [busy, Feed.Grows, Grow, Live.Grows, pushing]

example (u : UB) : Foreign.setSlice false .i32 [1, 2, 3] (.of none none none) busy ≠ .ub u :=
  C55_slice_assignment_partial false .i32 [1, 2, 3] _ busy busy_grows (fun _ => ⟨2, rfl⟩) (by simp) u
example : Foreign.setSlice false .i32 [1, 2, 3] (.of none none none) busy = .ok [1, 2, 3, 9, 7, 7] .none := by decide
example (op : CmpOp) (h : op ≠ .ne) (u : UB) : Foreign.compare .i32 op [1, 2, 3] busy ≠ .ub u :=
  C55_compare_partial .i32 op [1, 2, 3] busy busy_grows (fun h' => (h h').elim) u
example : Foreign.compare .i32 .lt [1, 2] (.of [1, 3]) = .ok [1, 2] (.bool true) := by decide
example : Foreign.set .i32 [1, 2] (.of 1) (.clearing 5) = .ub .outOfBounds :=
  C55_setitem_negation .i32 [1, 2] 1 5 (by decide) (by decide) (by decide)
example : Foreign.set .i32 [1, 2, 3] (.of (-1)) ⟨fun l => (l.take 2, .ok 5)⟩ = .ub .outOfBounds :=
  (C55_setitem_exact .i32 [1, 2, 3] _ _ _).mpr
    ⟨rfl, [1, 2, 3], [1, 2], -1, 5, 2, rfl, by decide, by decide, .inr rfl, rfl, by decide, by decide⟩
example : Foreign.set .i32 [1, 2, 3] (.of (-1)) ⟨fun l => (l.take 2, .error (.user 3))⟩ = .exc [1, 2] (.user 3) := by decide

end Verif.Props
