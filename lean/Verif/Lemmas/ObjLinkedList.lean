import Verif.Lemmas.ObjArrayList
import Verif.Lemmas.IntLinkedList
import Verif.Spec.GuardObjLinked

/-! Helper lemmas: ObjectLinkedList against the Python-list specification, with the change of every count. -/

namespace Verif.ObjLinked

open Heap

/-- The state of the array list with the same contents. -/
abbrev arr (s : OLState) : OState := ⟨vec s, s.heap⟩

theorem view_withHeap {e : Except UB Heap} {f : Heap → OLOut} :
    view (withHeap e f) = withHeap e fun h => view (f h) := by
  cases e <;> rfl

theorem size_vec (s : OLState) : s.list.size = (vec s).length := by simp [vec]

theorem listAt_lt {n i : Nat} (h : i ≤ n) : listAt n i = .ok i := by rw [listAt_eq, Nat.min_eq_left h]

variable {s : OLState}

theorem append_view (o : Obj) : view (append s o) = ObjArray.append (arr s) o := by
  simp only [append, ObjArray.append, view_withHeap]
  simp [view, vec]

theorem pushNew_view (xs : List Obj) : arr (pushNew xs s) = ObjArray.pushNew xs (arr s) := by
  induction xs generalizing s with
  | nil => rfl
  | cons o os ih =>
    rw [pushNew, ObjArray.pushNew, ih]
    simp [arr, vec]

theorem extendIter_view (b : Bool) (xs : List Obj) (f : Option Exc) (r : OVal) :
    view (extendIter b s xs f r) = ObjArray.extendIter (arr s) xs f r := by
  have h := pushNew_view (s := s) xs
  cases f <;> cases b <;> simp only [extendIter, ObjArray.extendIter, view, ← h] <;> rfl

theorem iadd_view (strict : Bool) {src : OSrc} (h : src ≠ .self) :
    view (iadd strict s src) = ObjArray.iadd (arr s) src := by
  cases src with
  | self => exact absurd rfl h
  | same v => simp only [iadd, ObjArray.iadd, view_withHeap]; simp [view, vec]
  | notIterable => rfl
  | _ => simp [iadd, ObjArray.iadd, extendIter_view]

theorem pop_view_none : view (pop s none) = ObjArray.pop (arr s) none := by
  unfold pop ObjArray.pop
  show view (match (vec s).getLast? with | none => _ | some last => _) = match (vec s).getLast? with | none => _ | some last => _
  cases h : (vec s).getLast? with
  | none => rfl
  | some x =>
    simp only [view]
    congr 2
    simp only [vec, LState.vals_bump, LState.vals_erase]
    rw [← LState.length_vals, List.eraseIdx_eq_take_drop_succ, List.dropLast_eq_take]
    rw [List.drop_eq_nil_of_le (by omega), List.append_nil]

theorem pop_view_bad (a : Arg) (h : ∀ v, a = .int v → Spec.position (vec s).length v = none) :
    view (pop s (some a)) = ObjArray.pop (arr s) (some a) := by
  unfold pop ObjArray.pop
  show view (match (vec s).getLast? with | none => _ | some last => _) = match (vec s).getLast? with | none => _ | some last => _
  cases h2 : (vec s).getLast? with
  | none => rfl
  | some x =>
    simp only
    cases h3 : asSsize a with
    | mk i e =>
      cases e with
      | some e => rfl
      | none =>
        simp only [size_vec]
        cases a with
        | int v =>
          have hv : i = v := by
            unfold asSsize at h3
            by_cases hfit : FitsS 64 v
            · simp only [hfit, if_true] at h3; cases h3; rfl
            · simp only [hfit, if_false] at h3; cases h3
          subst hv
          have := h i rfl
          unfold Spec.position at this
          split at this
          · cases this
          · split at this
            · cases this
            · rw [if_pos (by omega)]
              show _ = (if (if i < 0 then i + ((vec s).length : Int) else i) < 0 ∨
                (if i < 0 then i + ((vec s).length : Int) else i) ≥ (vec s).length then _ else _)
              rw [if_pos (by omega)]
              rfl
        | index v => cases h3
        | other => cases h3

theorem index_view (o : Obj) (i j : Option Arg) : view (index s o i j) = ObjArray.index (arr s) o i j := by
  unfold index ObjArray.index
  simp only [size_vec]
  have core : ∀ b c : Int, view (
      let start := if b < 0 then b + ((vec s).length : Int) else b
      let stop := if c < 0 then c + ((vec s).length : Int) else c
      let start := if start < 0 then 0 else start
      let stop := if stop > ((vec s).length : Int) then ((vec s).length : Int) else stop
      if start > stop then .exc s .valueError
      else
        match listAt (vec s).length stop.toNat, listAt (vec s).length start.toNat with
        | .ok q, .ok p =>
          if q < p then .ub .badIterator
          else
            match ArrayList.findFrom (vec s) p q o with
            | none => .exc s .valueError
            | some k => .ok s (.int k)
        | .error u, _ => .ub u
        | _, .error u => .ub u) =
      (let start := if b < 0 then b + ((vec s).length : Int) else b
      let stop := if c < 0 then c + ((vec s).length : Int) else c
      let start := if start < 0 then 0 else start
      let stop := if stop > ((vec s).length : Int) then ((vec s).length : Int) else stop
      if start > stop then .exc (arr s) .valueError
      else if stop < 0 then .ub .badIterator
      else
        match ArrayList.findFrom (vec s) start.toNat stop.toNat o with
        | none => .exc (arr s) .valueError
        | some k => .ok (arr s) (.int k)) := by
    intro b c
    simp only
    generalize hst : (if (if b < 0 then b + ((vec s).length : Int) else b) < 0 then 0 else
      if b < 0 then b + ((vec s).length : Int) else b) = st
    generalize hsp : (if (if c < 0 then c + ((vec s).length : Int) else c) > (vec s).length then
      ((vec s).length : Int) else if c < 0 then c + ((vec s).length : Int) else c) = sp
    have h1 : 0 ≤ st := by subst hst; split <;> omega
    have h2 : sp ≤ (vec s).length := by subst hsp; split <;> omega
    by_cases hlt : st > sp
    · rw [if_pos hlt, if_pos hlt]; rfl
    · rw [if_neg hlt, if_neg hlt, if_neg (by omega), listAt_lt (by omega), listAt_lt (by omega)]
      simp only
      rw [if_neg (by omega)]
      cases ArrayList.findFrom (vec s) st.toNat sp.toNat o <;> rfl
  cases i with
  | none =>
    cases j with
    | none => exact core 0 (vec s).length
    | some b => simp only; rcases parseN b with ⟨b, _ | e⟩ <;> first | rfl | exact core _ _
  | some a =>
    simp only
    rcases parseN a with ⟨a, _ | e⟩
    · cases j with
      | none => exact core _ _
      | some b => simp only; rcases parseN b with ⟨b, _ | e⟩ <;> first | rfl | exact core _ _
    · rfl

theorem insert_view (i : Arg) (o : Obj) : view (insert s i o) = ObjArray.insert (arr s) i o := by
  unfold insert ObjArray.insert
  rcases parseN i with ⟨i, _ | e⟩
  · simp only [size_vec]
    generalize hq : (if i < 0 then max 0 (((vec s).length : Int) + i) else if i > (vec s).length then
      ((vec s).length : Int) else i) = q
    have h : 0 ≤ q ∧ q ≤ (vec s).length := by omega
    rw [listAt_lt (by omega), if_pos h]
    simp only [view_withHeap]; simp [view, vec]
  · rfl

theorem remove_view (o : Obj) : view (remove s o) = ObjArray.remove (arr s) o := by
  unfold remove ObjArray.remove
  rw [size_vec]
  cases ArrayList.findFrom (vec s) 0 (vec s).length o with
  | none => rfl
  | some k => simp only [view_withHeap]; simp [view, vec]

theorem contains_view (H : OHost) (o : Obj) : view (contains H s o) = ObjArray.contains H (arr s) o := by
  unfold contains ObjArray.contains
  rw [size_vec]
  split <;> rfl

theorem deref_eq (i : Nat) :
    deref s.list i = (match (vec s)[i]? with | none => .error .outOfBounds | some v => .ok v) := by
  unfold deref
  rw [listAt_eq]
  simp only
  by_cases h : i < s.list.size
  · rw [show min i s.list.size = i by omega]
    show (match (vec s)[i]? with | none => _ | some v => _) = _
    cases (vec s)[i]? <;> rfl
  · have h1 : (vec s)[i]? = none := List.getElem?_eq_none (by simp [vec]; omega)
    have h2 : s.list.vals[min i s.list.size]? = none := List.getElem?_eq_none (by simp; omega)
    rw [h1, h2]

theorem getItem_view (i : Int) : view (getItem s i) = ObjArray.getItem (arr s) i := by
  unfold getItem ObjArray.getItem
  simp only [size_vec]
  generalize (if i < 0 then ((vec s).length : Int) + i else i) = q
  by_cases h : q < 0 ∨ q ≥ (vec s).length
  · rw [if_pos h, if_pos h]; rfl
  · rw [if_neg h, if_neg h, deref_eq, List.getElem?_eq_getElem (by omega)]
    simp only [view_withHeap]; simp [view, vec]

theorem sliceLoop_view (start step : Int) (n i : Nat) :
    sliceLoop s.list start step n i = ArrayList.sliceLoop (vec s) start step n i := by
  induction n generalizing i with
  | zero => rfl
  | succ n ih =>
    rw [sliceLoop, ArrayList.sliceLoop]
    simp only [deref_eq, ih]
    split
    · rfl
    · cases (vec s)[(start + (i : Int) * step).toNat]? <;> simp only
      cases ArrayList.sliceLoop (vec s) start step n (i + 1) <;> rfl

theorem subscript_view (k : Key) : view (subscript s k) = ObjArray.subscript (arr s) k := by
  cases k with
  | idx a =>
    cases a with
    | other => rfl
    | int v =>
      simp only [subscript, ObjArray.subscript]
      rcases asSsizeIndex (.int v) with ⟨i, _ | e⟩
      · exact getItem_view i
      · rfl
    | index v =>
      simp only [subscript, ObjArray.subscript]
      rcases asSsizeIndex (.index v) with ⟨i, _ | e⟩
      · exact getItem_view i
      · rfl
  | slice sl =>
    simp only [subscript, ObjArray.subscript]
    rcases sliceUnpack sl with e | ⟨a, b, c⟩
    · rfl
    · simp only [size_vec]
      rcases adjustIndices (vec s).length a b c with ⟨start, stop, n⟩
      simp only [sliceLoop_view]
      rcases ArrayList.sliceLoop (vec s) start c n.toNat 0 with u | r
      · rfl
      · simp only [view_withHeap]; simp [view, vec]

theorem setItem_view (i : Int) (v : Option Obj) : view (setItem s i v) = ObjArray.setItem (arr s) i v := by
  unfold setItem ObjArray.setItem
  simp only [size_vec]
  generalize (if i < 0 then ((vec s).length : Int) + i else i) = q
  by_cases h : q < 0 ∨ q ≥ (vec s).length
  · rw [if_pos h, if_pos h]; rfl
  · rw [if_neg h, if_neg h, listAt_lt (by omega)]
    simp only
    rw [List.getElem?_eq_getElem (by omega)]
    cases v <;> simp only [view_withHeap] <;> simp [view, vec]

theorem setIdx_view (a : Arg) (o : Obj) : view (setIdx s a o) = ObjArray.setIdx (arr s) a o := by
  cases a with
  | other => rfl
  | int v =>
    simp only [setIdx, ObjArray.setIdx]
    rcases asSsizeIndex (.int v) with ⟨i, _ | e⟩
    · exact setItem_view i _
    · rfl
  | index v =>
    simp only [setIdx, ObjArray.setIdx]
    rcases asSsizeIndex (.index v) with ⟨i, _ | e⟩
    · exact setItem_view i _
    · rfl

theorem del_view (k : Key) : view (del s k) = ObjArray.del (arr s) k := by
  cases k with
  | idx a =>
    cases a with
    | other => rfl
    | int v =>
      simp only [del, ObjArray.del]
      rcases asSsizeIndex (.int v) with ⟨i, _ | e⟩
      · exact setItem_view i _
      · rfl
    | index v =>
      simp only [del, ObjArray.del]
      rcases asSsizeIndex (.index v) with ⟨i, _ | e⟩
      · exact setItem_view i _
      · rfl
  | slice sl =>
    simp only [del, ObjArray.del]
    rcases sliceUnpack sl with e | f <;> rfl

theorem add_view (src : OSrc) : view (add s src) = ObjArray.add (arr s) src := by
  cases src <;> simp only [add, ObjArray.add, view_withHeap] <;> simp [view, vec]

theorem mul_view (n : Int) : view (mul s n) = ObjArray.mul (arr s) n := by
  unfold mul ObjArray.mul
  simp only
  generalize (if n < 0 then 0 else n) = m
  split
  · rfl
  · rcases ObjArray.mulLoop (vec s) m.toNat [] s.heap with u | ⟨r, h⟩ <;> rfl

theorem rmul_view (a : Arg) : view (rmul s a) = ObjArray.rmul (arr s) a := by
  simp only [rmul, ObjArray.rmul]
  rcases asLong a with ⟨n, _ | e⟩
  · exact mul_view n
  · rfl

theorem eqLoop_vec (H : OHost) (op : CmpOp) (stop : Bool) (xs ys v : List Obj) (h : Heap) :
    match ObjArray.eqLoop H op stop xs ys ⟨v, h⟩ with
    | .ok s' _ | .exc s' _ | .pending s' _ _ => s'.vec = v
    | .ub _ => True := by
  induction xs generalizing ys h with
  | nil => simp [ObjArray.eqLoop]
  | cons x xs ih =>
    cases ys with
    | nil => simp [ObjArray.eqLoop]
    | cons y ys =>
      rw [ObjArray.eqLoop]
      rcases ObjArray.compare1 H op x y h with u | ⟨e | b, h'⟩
      · trivial
      · rfl
      · by_cases hb : b = stop
        · simp [hb]
        · simp only [hb, if_false]
          exact ih ys h'

theorem compare_vec (H : OHost) (op : CmpOp) (src : OSrc) (a : OState) :
    match ObjArray.compare H op a src with
    | .ok s' _ | .exc s' _ | .pending s' _ _ => s'.vec = a.vec
    | .ub _ => True := by
  have heq : ∀ op stop, match ObjArray.eqNe H op stop a src with
      | .ok s' _ | .exc s' _ | .pending s' _ _ => s'.vec = a.vec
      | .ub _ => True := by
    intro op stop
    have key : ∀ ys, match (if src.size a.vec ≠ a.vec.length then .ok a (.bool stop)
          else ObjArray.eqLoop H op stop a.vec ys a : OOut) with
        | .ok s' _ | .exc s' _ | .pending s' _ _ => s'.vec = a.vec
        | .ub _ => True := by
      intro ys
      by_cases h : src.size a.vec ≠ a.vec.length
      · simp [h]
      · rw [if_neg h]
        exact eqLoop_vec H op stop a.vec ys a.vec a.heap
    cases src <;> first | rfl | exact key _
  have hord : ∀ op, match ObjArray.ord H op a src with
      | .ok s' _ | .exc s' _ | .pending s' _ _ => s'.vec = a.vec
      | .ub _ => True := by
    intro op
    have key : match (if src.size a.vec ≠ a.vec.length then
          .ok a (.bool (decide ((a.vec.length : Int) < src.size a.vec)))
        else
          match a.vec, src.elems a.vec with
          | x :: _, y :: _ =>
            match ObjArray.compare1 H op x y a.heap with
            | .error u => .ub u
            | .ok (.error e, h) => .exc ⟨a.vec, h⟩ e
            | .ok (.ok b, h) => .ok ⟨a.vec, h⟩ (.bool b)
          | _, _ => .ok a (.bool false) : OOut) with
        | .ok s' _ | .exc s' _ | .pending s' _ _ => s'.vec = a.vec
        | .ub _ => True := by
      by_cases h : src.size a.vec ≠ a.vec.length
      · simp [h]
      · rw [if_neg h]
        cases hv : a.vec with
        | nil => exact hv
        | cons x xs =>
          cases hw : src.elems (x :: xs) with
          | nil => exact hv
          | cons y ys =>
            simp only
            rcases ObjArray.compare1 H op x y a.heap with u | ⟨e | b, h'⟩
            · trivial
            · rfl
            · rfl
    cases src <;> first | rfl | exact key
  cases op <;> first | exact heq _ _ | exact hord _

theorem compare_view (H : OHost) (op : CmpOp) (src : OSrc) :
    view (ObjLinked.compare H op s src) = ObjArray.compare H op (arr s) src := by
  have h := compare_vec H op src (arr s)
  unfold ObjLinked.compare
  cases hc : ObjArray.compare H op (arr s) src with
  | ok s' r => rw [hc] at h; simp only [view]; congr 1; cases s'; simp at h; subst h; rfl
  | exc s' r => rw [hc] at h; simp only [view]; congr 1; cases s'; simp at h; subst h; rfl
  | pending s' r e => rw [hc] at h; simp only [view]; congr 1; cases s'; simp at h; subst h; rfl
  | ub u => rfl

/-- The outcome is the specified one and the counts change accordingly. -/
def LDoes (o : OLOut) (s : OLState) (res : Spec.ORes) (lk : List Obj) : Prop := Does (view o) (arr s) res lk

variable {ext : Obj → Nat}

theorem extend_does (strict : Bool) (hc : Covered ext s.heap (vec s)) {src : OSrc} (hs : src ≠ .self)
    (hh : ∀ o ∈ Spec.mentioned (.extend src), s.heap.imm o = true ∨ 0 < ext o) (H : OHost) :
    LDoes (extend strict s src) s (Spec.ostep H (vec s) (.extend src)) [] := by
  have h0 := @ObjArray.extend_does ext (arr s) hc
  cases src with
  | self => exact absurd rfl hs
  | same v =>
    have := h0 (src := .same v) (by simp) hh H
    unfold LDoes
    simp only [extend, view_withHeap]
    simpa [view, vec, ObjArray.extend] using this
  | notIterable => exact h0 (src := .notIterable) (by simp) hh H
  | iter xs f =>
    have := h0 (src := .iter xs f) (by simp) hh H
    unfold LDoes
    simp only [extend, extendIter_view]
    exact this
  | list xs | tuple xs | seq xs | seqNoLen xs =>
    have := @ObjArray.extendIter_does (arr s) xs none .none (.inl rfl)
    unfold LDoes
    simp only [extend, extendIter_view]
    exact this

/-! ### `*=` -/

theorem imulInner_ok (base rest : List Obj) (n j : Nat) (hj : j + n ≤ base.length) :
    ∀ s : OLState, vec s = base ++ rest → (∀ o ∈ base, s.heap.imm o = true ∨ 0 < s.heap.rc o) →
    ∃ s', imulInner n j s = .ok s' ∧ vec s' = vec s ++ (base.drop j).take n ∧
      Adj s.heap s'.heap (fun x => (((base.drop j).take n).count x : Nat)) := by
  induction n generalizing j rest with
  | zero => intro s _ _; exact ⟨s, rfl, by simp, (Adj.refl _).congr (by simp)⟩
  | succ n ih =>
    intro s hv hl
    have hjl : j < base.length := by omega
    have hget : (vec s)[j]? = some base[j] := by
      rw [hv, List.getElem?_append_left hjl, List.getElem?_eq_getElem hjl]
    obtain ⟨h1, e1, a1⟩ := incref_ok (hl _ (List.getElem_mem hjl))
    have hv1 : vec ⟨s.list.push base[j], h1⟩ = base ++ (rest ++ [base[j]]) := by
      have hv' : s.list.vals = base ++ rest := hv
      simp [vec, hv']
    obtain ⟨s', e2, v2, a2⟩ := ih (rest ++ [base[j]]) (j + 1) (by omega) ⟨s.list.push base[j], h1⟩ hv1
      (fun o ho => by
        show h1.imm o = true ∨ 0 < h1.rc o
        rw [a1.1]
        by_cases him : s.heap.imm o = true
        · exact .inl him
        · right
          have q1 := a1.2 o (by simpa using him)
          have q2 := (hl o ho).resolve_left him
          dsimp only at q1
          omega)
    have hd : (base.drop j).take (n + 1) = base[j] :: (base.drop (j + 1)).take n := by
      rw [List.drop_eq_getElem_cons hjl, List.take_succ_cons]
    refine ⟨s', ?_, ?_, ?_⟩
    · rw [imulInner, hget]
      simp only [e1]
      exact e2
    · rw [v2, hd, hv1, hv]
      simp
    · rw [hd]
      exact (a1.trans a2).congr fun x => (count_cons_int _ x _).symm

theorem imulOuter_ok (base : List Obj) (k : Nat) :
    ∀ (rest : List Obj) (s : OLState), vec s = base ++ rest →
    (∀ o ∈ base, s.heap.imm o = true ∨ 0 < s.heap.rc o) →
    ∃ s', imulOuter base.length k s = .ok s' ∧ vec s' = vec s ++ (List.replicate k base).flatten ∧
      Adj s.heap s'.heap (fun x => (((List.replicate k base).flatten).count x : Nat)) := by
  induction k with
  | zero => intro rest s _ _; exact ⟨s, rfl, by simp, (Adj.refl _).congr (by simp)⟩
  | succ k ih =>
    intro rest s hv hl
    obtain ⟨s1, e1, v1, a1⟩ := imulInner_ok base rest base.length 0 (by omega) s hv hl
    rw [List.drop_zero, List.take_length] at v1 a1
    obtain ⟨s2, e2, v2, a2⟩ := ih (rest ++ base) s1 (by rw [v1, hv, List.append_assoc])
      (fun o ho => by
        rw [a1.1]
        by_cases him : s.heap.imm o = true
        · exact .inl him
        · right
          have q1 := a1.2 o (by simpa using him)
          have q2 := (hl o ho).resolve_left him
          dsimp only at q1
          omega)
    refine ⟨s2, ?_, ?_, ?_⟩
    · rw [imulOuter, e1]; exact e2
    · rw [v2, v1, List.replicate_succ, List.flatten_cons, List.append_assoc]
    · refine (a1.trans a2).congr fun x => ?_
      rw [List.replicate_succ, List.flatten_cons, List.count_append]
      omega

theorem imul_does (hc : Covered ext s.heap (vec s)) (n : Int) (H : OHost) :
    LDoes (imul s n) s (Spec.ostep H (vec s) (.imul n)) (leaked (vec s) (.imul n)) := by
  unfold LDoes imul
  by_cases hn : n ≤ 0
  · have h1 : (if n < 0 then 0 else n) = 0 := by split <;> omega
    simp only [h1, if_true]
    refine ⟨s.heap, ?_, (Adj.refl _).congr fun x => ?_⟩
    · simp [view, vec, outOf, Spec.ostep, Spec.ocopies, Int.toNat_of_nonpos hn]
    · simp [delta, Spec.ostep, Spec.ocopies, Int.toNat_of_nonpos hn, leaked, hn, Spec.carried]
      omega
  · have h1 : (if n < 0 then 0 else n) = n := by rw [if_neg (by omega)]
    simp only [h1]
    rw [if_neg (by omega), size_vec]
    obtain ⟨s', e, v, a⟩ := imulOuter_ok (vec s) (n.toNat - 1) [] s (by simp) (fun o ho => hc.live ho)
    rw [e]
    have hcop : Spec.ocopies (vec s) n = vec s ++ (List.replicate (n.toNat - 1) (vec s)).flatten := by
      unfold Spec.ocopies
      conv => lhs; rw [show n.toNat = (n.toNat - 1) + 1 by omega]
      rw [List.replicate_succ, List.flatten_cons]
    refine ⟨s'.heap, ?_, a.congr fun x => ?_⟩
    · simp [view, outOf, Spec.ostep, hcop, v]
    · simp [delta, Spec.ostep, hcop, leaked, hn, Spec.carried, List.count_append]
      omega

/-! ### slice assignment -/

theorem count_set (l : List Obj) (p : Nat) (o x : Obj) (h : p < l.length) :
    ((l.set p o).count x : Int) = (l.count x : Nat) - ([l[p]].count x : Nat) + ([o].count x : Nat) := by
  have e1 : l.set p o = l.take p ++ [o] ++ l.drop (p + 1) := by
    rw [List.set_eq_take_append_cons_drop, if_pos h]; simp
  have e2 : l = l.take p ++ [l[p]] ++ l.drop (p + 1) := by
    conv => lhs; rw [← List.take_append_drop p l, List.drop_eq_getElem_cons h]
    simp
  have c1 := congrArg (fun z => (z.count x : Int)) e1
  have c2 := congrArg (fun z => (z.count x : Int)) e2
  simp only [List.count_append] at c1 c2
  omega

theorem shrink_ok (p n : Nat) : ∀ s : OLState, p + n ≤ (vec s).length → Covered ext s.heap (vec s) →
    ∃ s', shrink p n s = .ok s' ∧ vec s' = (vec s).take p ++ (vec s).drop (p + n) ∧
      Adj s.heap s'.heap (fun x => ((vec s').count x : Nat) - ((vec s).count x : Nat)) := by
  induction n with
  | zero =>
    intro s _ _
    exact ⟨s, rfl, by simp, (Adj.refl _).congr (by simp)⟩
  | succ n ih =>
    intro s hp hc
    have hlt : p < (vec s).length := by omega
    obtain ⟨h1, e1, a1⟩ := decref_ok (hc.live (List.getElem_mem hlt))
    have hv1 : vec ⟨s.list.erase p, h1⟩ = (vec s).take p ++ (vec s).drop (p + 1) := by
      simp [vec, List.eraseIdx_eq_take_drop_succ]
    have hcnt : ∀ x, ((vec s).count x : Int) = (vec ⟨s.list.erase p, h1⟩).count x + ([(vec s)[p]].count x : Nat) := by
      intro x
      have e2 : vec s = (vec s).take p ++ [(vec s)[p]] ++ (vec s).drop (p + 1) := by
        conv => lhs; rw [← List.take_append_drop p (vec s), List.drop_eq_getElem_cons hlt]
        simp
      have c2 := congrArg (fun z => (z.count x : Int)) e2
      rw [hv1]
      simp only [List.count_append] at c2 ⊢
      omega
    obtain ⟨s', e2, v2, a2⟩ := ih ⟨s.list.erase p, h1⟩ (by rw [hv1]; simp; omega)
      (fun o ho => by
        rw [a1.1] at ho
        have q1 := a1.2 o ho
        have q2 := hc o ho
        have q3 := hcnt o
        dsimp only at q1 ⊢
        omega)
    refine ⟨s', ?_, ?_, ?_⟩
    · rw [shrink, List.getElem?_eq_getElem hlt]
      simp only [e1]
      exact e2
    · rw [v2, hv1, List.take_append_of_le_length (by simp; omega), List.take_take, Nat.min_self,
        List.drop_append]
      simp only [List.length_take, Nat.min_eq_left (Nat.le_of_lt hlt)]
      rw [List.drop_eq_nil_of_le (by simp; omega), List.nil_append, List.drop_drop]
      congr 2
      omega
    · refine (a1.trans a2).congr fun x => ?_
      have := hcnt x
      omega

theorem grow_ok {src : OSrc} {xs : List Obj} (hs : ObjArray.sized src = some xs) (n : Nat) :
    ∀ (i p : Nat) (s : OLState), p ≤ (vec s).length → i + n ≤ xs.length →
    ∃ s', grow src n i p s = .ok s' ∧ vec s' = (vec s).take p ++ (xs.drop i).take n ++ (vec s).drop p ∧
      Adj s.heap s'.heap (fun x => ((vec s').count x : Nat) - ((vec s).count x : Nat)) := by
  induction n with
  | zero =>
    intro i p s _ _
    exact ⟨s, rfl, by simp, (Adj.refl _).congr (by simp)⟩
  | succ n ih =>
    intro i p s hp hx
    have hlt : i < xs.length := by omega
    obtain ⟨e1, -, -, -⟩ := ObjArray.elems_sized hs (vec s)
    have a1 := gain_adj s.heap xs[i]
    have hv1 : vec ⟨s.list.insert p xs[i], s.heap.gain xs[i]⟩ = (vec s).take p ++ xs[i] :: (vec s).drop p := by
      simp [vec]
    obtain ⟨s', e2, v2, a2⟩ := ih (i + 1) (p + 1) ⟨s.list.insert p xs[i], s.heap.gain xs[i]⟩
      (by rw [hv1]; simp; omega) (by omega)
    refine ⟨s', ?_, ?_, ?_⟩
    · rw [grow, e1, List.getElem?_eq_getElem hlt]
      simp only
      rw [if_pos (by rw [size_vec]; exact hp)]
      exact e2
    · have hl : ((vec s).take p).length = p := by simp; omega
      have t1 : ((vec s).take p ++ xs[i] :: (vec s).drop p).take (p + 1) = (vec s).take p ++ [xs[i]] := by
        rw [List.take_append, hl, List.take_of_length_le (by omega), show p + 1 - p = 1 by omega]
        simp
      have t2 : ((vec s).take p ++ xs[i] :: (vec s).drop p).drop (p + 1) = (vec s).drop p := by
        rw [List.drop_append, hl, List.drop_eq_nil_of_le (by omega), show p + 1 - p = 1 by omega]
        simp
      rw [v2, hv1, t1, t2, List.drop_eq_getElem_cons hlt, List.take_succ_cons]
      simp
    · refine (a1.trans a2).congr fun x => ?_
      have c : ((vec ⟨s.list.insert p xs[i], s.heap.gain xs[i]⟩).count x : Int) =
          ([xs[i]].count x : Nat) + ((vec s).count x : Nat) := by
        rw [hv1]
        have c2 := congrArg (fun z => (z.count x : Int)) (List.take_append_drop p (vec s))
        rw [List.count_append, List.count_cons]
        simp only [List.count_append] at c2
        simp only [List.count_cons, List.count_nil]
        omega
      omega

theorem overwrite_ok {src : OSrc} {xs : List Obj} (hs : ObjArray.sized src = some xs) (start step : Int) (n : Nat) :
    ∀ (i : Nat) (s : OLState), Covered ext s.heap (vec s) → i + n ≤ xs.length →
    (∀ t : Nat, t < n → 0 ≤ start + ((i + t : Nat) : Int) * step ∧ start + ((i + t : Nat) : Int) * step < (vec s).length) →
    ∃ s', overwrite src start step n i s = .ok s' ∧
      vec s' = Spec.overwrite (vec s) ((List.range n).map fun t => (start + ((i + t : Nat) : Int) * step).toNat)
        ((xs.drop i).take n) ∧
      Adj s.heap s'.heap (fun x => ((vec s').count x : Nat) - ((vec s).count x : Nat)) := by
  induction n with
  | zero =>
    intro i s _ _ _
    exact ⟨s, rfl, by simp [Spec.overwrite], (Adj.refl _).congr (by simp)⟩
  | succ n ih =>
    intro i s hc hx hidx
    have hlt : i < xs.length := by omega
    obtain ⟨e1, -, -, -⟩ := ObjArray.elems_sized hs (vec s)
    obtain ⟨b1, b2⟩ := hidx 0 (by omega)
    rw [Nat.add_zero] at b1 b2
    generalize hq : start + (i : Int) * step = q at b1 b2
    have hqn : q.toNat < (vec s).length := by omega
    have a1 := gain_adj s.heap xs[i]
    have hlive : (s.heap.gain xs[i]).imm (vec s)[q.toNat] = true ∨ 0 < (s.heap.gain xs[i]).rc (vec s)[q.toNat] := by
      rw [a1.1]
      by_cases him : s.heap.imm (vec s)[q.toNat] = true
      · exact .inl him
      · right
        have q1 := a1.2 _ (by simpa using him)
        have q2 := (hc.live (List.getElem_mem hqn)).resolve_left him
        dsimp only at q1
        omega
    obtain ⟨h1, e2, a2⟩ := decref_ok hlive
    have hv1 : vec ⟨s.list.assign q.toNat xs[i], h1⟩ = (vec s).set q.toNat xs[i] := by simp [vec]
    have hcs := fun x => count_set (vec s) q.toNat xs[i] x hqn
    obtain ⟨s', e3, v3, a3⟩ := ih (i + 1) ⟨s.list.assign q.toNat xs[i], h1⟩
      (by
        intro o ho
        rw [a2.1, a1.1] at ho
        have q1 := a1.2 o ho
        have q2 := a2.2 o (by rw [a1.1]; exact ho)
        have q3 := hc o ho
        have q4 := hcs o
        rw [hv1]
        dsimp only at q1 q2 ⊢
        omega)
      (by omega)
      (by
        intro t ht
        have := hidx (t + 1) (by omega)
        rw [hv1, List.length_set]
        rwa [show i + 1 + t = i + (t + 1) by omega])
    refine ⟨s', ?_, ?_, ?_⟩
    · rw [overwrite, e1, List.getElem?_eq_getElem hlt]
      simp only [hq]
      rw [if_neg (by omega), size_vec, listAt_lt (by omega)]
      simp only
      rw [List.getElem?_eq_getElem hqn]
      simp only [e2]
      exact e3
    · rw [v3, hv1, List.drop_eq_getElem_cons hlt, List.take_succ_cons, List.range_succ_eq_map, List.map_cons,
        Spec.overwrite, List.map_map]
      simp only [Nat.add_zero, hq]
      congr 1
      apply List.map_congr_left
      intro t _
      simp only [Function.comp]
      rw [show i + 1 + t = i + (t + 1) by omega]
    · refine ((a1.trans a2).trans a3).congr fun x => ?_
      have := hcs x
      rw [hv1]
      omega

theorem overwrite_contig (A Y B xs : List Obj) (h : Y.length = xs.length) :
    Spec.overwrite (A ++ Y ++ B) ((List.range xs.length).map fun t => A.length + t) xs = A ++ xs ++ B := by
  induction xs generalizing A Y with
  | nil => simp at h; subst h; simp [Spec.overwrite]
  | cons x xs ih =>
    cases Y with
    | nil => simp at h
    | cons y Y =>
      rw [List.length_cons, List.range_succ_eq_map, List.map_cons, Spec.overwrite, List.map_map, Nat.add_zero]
      have e : (A ++ y :: Y ++ B).set A.length x = (A ++ [x]) ++ Y ++ B := by
        rw [List.append_assoc, List.set_append_right _ _ (by omega)]
        simp
      rw [e]
      have := ih (A ++ [x]) Y (by simpa using h)
      rw [List.length_append, List.length_singleton] at this
      have e2 : (fun t => A.length + t) ∘ Nat.succ = fun t => A.length + 1 + t := by
        funext t; simp only [Function.comp]; omega
      rw [e2, this]
      simp

theorem adjust_nonneg {n : Nat} {a b k start stop cnt : Int} (h : adjustIndices n a b k = (start, stop, cnt)) :
    0 ≤ cnt := by
  unfold adjustIndices at h
  simp only [Prod.mk.injEq] at h
  obtain ⟨h1, h2, h3⟩ := h
  rw [h1, h2] at h3
  subst h3
  by_cases hk : k < 0
  · rw [if_pos hk]
    split
    · have := Int.ediv_nonneg (a := start - stop - 1) (b := -k) (by omega) (by omega)
      omega
    · omega
  · rw [if_neg hk]
    split
    · have := Int.ediv_nonneg (a := stop - start - 1) (b := k) (by omega) (by omega)
      omega
    · omega

theorem adj_covered {l l' : List Obj} {h h' : Heap} (hc : Covered ext h l)
    (a : Adj h h' (fun x => (l'.count x : Nat) - (l.count x : Nat))) : Covered ext h' l' := by
  intro o ho
  rw [a.1] at ho
  have q1 := a.2 o ho
  have q2 := hc o ho
  dsimp only at q1
  omega

theorem does_slice {src : OSrc} {xs : List Obj} {start stop step n : Int} {l' : List Obj} {s' : OLState}
    (he : replace src start stop step n xs.length s = .ok s') (hv : vec s' = l')
    (ha : Adj s.heap s'.heap (fun x => ((vec s').count x : Nat) - ((vec s).count x : Nat))) :
    Does (view (match replace src start stop step n xs.length s with
      | .error u => .ub u
      | .ok s => .ok s .none)) (arr s) (l', .ok .none) [] := by
  rw [he]
  subst hv
  refine ⟨s'.heap, rfl, ha.congr fun x => ?_⟩
  simp [delta, Spec.carried]

/-- Writing the items to `start, start + 1, …`. -/
theorem overwrite_one {src : OSrc} {xs A Y B : List Obj} (hs : ObjArray.sized src = some xs) {start : Int}
    (hst : start = A.length) (hv : vec s = A ++ Y ++ B) (hl : Y.length = xs.length)
    (hc : Covered ext s.heap (vec s)) :
    ∃ s', overwrite src start 1 xs.length 0 s = .ok s' ∧ vec s' = A ++ xs ++ B ∧
      Adj s.heap s'.heap (fun x => ((vec s').count x : Nat) - ((vec s).count x : Nat)) := by
  obtain ⟨s', e, v, a⟩ := overwrite_ok hs start 1 xs.length 0 s hc (by omega) (by
    intro t ht
    rw [hv]
    simp only [List.length_append]
    omega)
  refine ⟨s', e, ?_, a⟩
  rw [v, hv, List.drop_zero, List.take_length]
  have : (fun t : Nat => (start + ((0 + t : Nat) : Int) * 1).toNat) = fun t => A.length + t := by
    funext t; omega
  rw [this, overwrite_contig _ _ _ _ hl]

theorem setSlice_does (hc : Covered ext s.heap (vec s)) {sl : SliceArg} {src : OSrc} (H : OHost)
    (hok : OpOk H (vec s) (.setSlice sl src)) :
    LDoes (setSlice s sl src) s (Spec.ostep H (vec s) (.setSlice sl src)) [] := by
  obtain ⟨hn, hok⟩ := hok
  obtain ⟨u1, u2⟩ := sliceUnpack_fields sl
  unfold LDoes
  cases hf : Spec.fields sl with
  | error e =>
    simp only [setSlice, Spec.ostep, u1, hf]
    exact ObjArray.does_err (s := arr s) e
  | ok f =>
    obtain ⟨i, j, k⟩ := f
    have hk0 := u2 i j k hf
    rw [hf] at u1
    simp only at u1
    rcases hok with rfl | ⟨xs, hs, hsl⟩
    · simp only [setSlice, Spec.ostep, u1, hf]
      simp only [OSrc.isSequence, Bool.not_false, if_true, Spec.oitems]
      exact ObjArray.does_err (s := arr s) _
    · have hsl := hsl _ hf
      obtain ⟨z1, z2, z3, z4⟩ := ObjArray.elems_sized hs (vec s)
      have hit : Spec.oitems (vec s) src = .ok (xs, none) := by
        cases src <;> simp [ObjArray.sized] at hs <;> subst hs <;> rfl
      simp only [setSlice, Spec.ostep, u1, hf, z2, z3, hit, Bool.not_true, Bool.false_eq_true, if_false, size_vec]
      rw [if_neg (by omega)]
      generalize hadj : adjustIndices (vec s).length _ _ _ = adj
      obtain ⟨start, stop, cnt⟩ := adj
      obtain ⟨p1, p2, p3⟩ := adjust_positions hn hk0 hadj
      simp only
      generalize hstep : (if clampSsize k < -ssizeMax then -ssizeMax else clampSsize k) = step at *
      have hlen : (Spec.positions (vec s).length i j k).length = cnt.toNat := by rw [p1]; simp
      have hcnt0 : 0 ≤ cnt := adjust_nonneg hadj
      by_cases heq : cnt.toNat = xs.length
      · -- same length: every step
        obtain ⟨s', e, v, a⟩ := overwrite_ok hs start step xs.length 0 s hc (by omega) (by
          intro t ht
          have := p2 t (by omega)
          simpa using this)
        rw [List.drop_zero, List.take_length] at v
        have hpos : ((List.range xs.length).map fun t : Nat => (start + ((0 + t : Nat) : Int) * step).toNat) =
            Spec.positions (vec s).length i j k := by
          rw [p1, heq]
          simp
        rw [hpos] at v
        have hrep : replace src start stop step cnt xs.length s = .ok s' := by
          unfold replace
          simp only
          rw [if_neg (by omega), if_neg (by omega)]
          simpa using e
        by_cases hk1 : k = 1
        · subst hk1
          rw [if_pos rfl]
          refine does_slice hrep ?_ a
          have hst1 : step = 1 := by rw [← hstep]; decide
          obtain ⟨q1, q2⟩ := p3 (by decide)
          subst hst1
          have hb := LinkedList.adjust_one (n := (vec s).length) (start := start) (stop := stop) (cnt := cnt) hadj
          obtain ⟨b1, b2, b3, b4, b5⟩ := hb
          have hA : vec s = (vec s).take start.toNat ++ ((vec s).drop start.toNat).take (stop.toNat - start.toNat) ++
              (vec s).drop (max start.toNat stop.toNat) := by
            have e : max start.toNat stop.toNat = start.toNat + (stop.toNat - start.toNat) := by omega
            rw [e, ← List.drop_drop, List.append_assoc, List.take_append_drop, List.take_append_drop]
          rw [v, ← hpos]
          conv => lhs; rw [hA]
          have hfun : (fun t : Nat => (start + ((0 + t : Nat) : Int) * 1).toNat) =
              fun t => ((vec s).take start.toNat).length + t := by
            funext t
            rw [List.length_take]
            omega
          rw [hfun, overwrite_contig _ _ _ _ (by simp; omega)]
          simp only [Spec.spliceAt, ← q1, ← q2]
        · rw [if_neg hk1, if_pos (by rw [hlen, heq])]
          exact does_slice hrep v a
      · obtain ⟨rfl, hor⟩ := hsl.resolve_left (by rw [hlen]; exact heq)
        rw [if_pos rfl]
        have hst1 : step = 1 := by rw [← hstep]; decide
        subst hst1
        obtain ⟨q1, q2⟩ := p3 (by decide)
        obtain ⟨b1, b2, b3, b4, b5⟩ := LinkedList.adjust_one (n := (vec s).length) hadj
        have hspl : Spec.spliceAt (vec s) i j xs =
            (vec s).take start.toNat ++ xs ++ (vec s).drop (max start.toNat stop.toNat) := by
          simp only [Spec.spliceAt, ← q1, ← q2]
        by_cases hlt : xs.length < cnt.toNat
        · -- shorter value
          obtain ⟨s1, e1, v1, a1⟩ := shrink_ok (ext := ext) (start.toNat + xs.length) (cnt.toNat - xs.length) s
            (by omega) hc
          have hc1 := adj_covered hc a1
          have hY : vec s1 = (vec s).take start.toNat ++ ((vec s).drop start.toNat).take xs.length ++
              (vec s).drop (max start.toNat stop.toNat) := by
            rw [v1]
            congr 1
            · rw [List.take_add]
            · congr 1; omega
          obtain ⟨s2, e2, v2, a2⟩ := overwrite_one hs (start := start) (s := s1) (by simp; omega) hY (by simp; omega)
            hc1
          have hrep : replace src start stop 1 cnt xs.length s = .ok s2 := by
            unfold replace
            simp only
            rw [if_pos (by omega), if_neg (by omega), size_vec, listAt_lt (by omega)]
            simp only
            rw [show (start + (xs.length : Int) * 1).toNat = start.toNat + xs.length by omega,
              show (cnt - (xs.length : Int)).toNat = cnt.toNat - xs.length by omega, e1]
            simpa using e2
          refine does_slice hrep (by rw [v2, hspl]) ((a1.trans a2).congr fun x => by omega)
        · -- longer value
          have hle : start ≤ stop := by
            rcases hor with h | h
            · rw [hlen] at h; omega
            · rw [q1, q2]; exact h
          obtain ⟨s1, e1, v1, a1⟩ := grow_ok hs (xs.length - cnt.toNat) cnt.toNat stop.toNat s (by omega) (by omega)
          have hc1 := adj_covered hc a1
          have hY : vec s1 = (vec s).take start.toNat ++ (((vec s).drop start.toNat).take (stop.toNat - start.toNat) ++
              (xs.drop cnt.toNat).take (xs.length - cnt.toNat)) ++ (vec s).drop (max start.toNat stop.toNat) := by
            rw [v1, Nat.max_eq_right (by omega), ← List.append_assoc]
            congr 2
            conv => lhs; rw [show stop.toNat = start.toNat + (stop.toNat - start.toNat) by omega, List.take_add]
          obtain ⟨s2, e2, v2, a2⟩ := overwrite_one hs (start := start) (s := s1) (by simp; omega) hY (by simp; omega)
            hc1
          have hrep : replace src start stop 1 cnt xs.length s = .ok s2 := by
            unfold replace
            simp only
            rw [if_neg (by omega), if_pos (by omega), if_neg (by omega), size_vec, listAt_lt (by omega)]
            simp only
            rw [show ((xs.length : Int) - cnt).toNat = xs.length - cnt.toNat by omega, e1]
            simpa using e2
          refine does_slice hrep (by rw [v2, hspl]) ((a1.trans a2).congr fun x => by omega)

theorem step_does (H : OHost) (strict : Bool) (hc : Covered ext s.heap (vec s)) {op : OOp}
    (hok : OpOk H (vec s) op) (hh : Held ext s.heap op) :
    LDoes (step H strict s op) s (Spec.ostep H (vec s) op) (leaked (vec s) op) := by
  have base := fun {op} => @ObjArray.step_does ext (arr s) ⟨.v312, false, false, false, false⟩ H 1 (by omega) hc op
  unfold LDoes
  cases op with
  | append o => rw [step, append_view]; exact base (op := .append o) hok hh
  | extend src => exact extend_does strict hc hok hh H
  | insert i o => rw [step, insert_view]; exact base (op := .insert i o) hok hh
  | pop a =>
    cases a with
    | none => rw [step, pop_view_none]; exact base (op := .pop none) hok.1 hh
    | some a =>
      rw [step, pop_view_bad a (fun v hv => hok.2 v (by rw [hv]))]
      exact base (op := .pop (some a)) hok.1 hh
  | remove o => rw [step, remove_view]; exact base (op := .remove o) hok hh
  | index o i j => rw [step, index_view]; exact base (op := .index o i j) hok hh
  | count o => exact base (op := .count o) hok hh
  | contains o => rw [step, contains_view]; exact base (op := .contains o) hok hh
  | get k => rw [step, subscript_view]; exact base (op := .get k) (by cases k <;> exact hok) hh
  | setItem a o => rw [step, setIdx_view]; exact base (op := .setItem a o) hok hh
  | setSlice sl src => exact setSlice_does hc H hok
  | del k => rw [step, del_view]; exact base (op := .del k) (by cases k <;> exact hok) hh
  | iadd src => rw [step, iadd_view strict hok.1]; exact base (op := .iadd src) hok hh
  | add src => rw [step, add_view]; exact base (op := .add src) hok hh
  | mul n => rw [step, mul_view]; exact base (op := .mul n) hok hh
  | rmul a => rw [step, rmul_view]; exact base (op := .rmul a) hok hh
  | imul n => exact imul_does hc n H
  | cmp op src => rw [step, compare_view]; exact base (op := .cmp op src) hok hh
  | reverse =>
    have := base (op := .reverse) trivial hh
    rw [ObjArray.step, ObjArray.reverse_eq] at this
    rw [step]
    have e : view (.ok ⟨s.list.reverse, s.heap⟩ .none) = .ok ⟨(vec s).reverse, s.heap⟩ .none := by
      simp [view, vec]
    rw [e]
    exact this
  | resize a => exact hok.elim
  | clear =>
    have e : view (clear s) = ObjArray.clear (arr s) := by
      simp only [clear, ObjArray.clear, view_withHeap]; simp [view, vec]
    rw [step, e]; exact base (op := .clear) hok hh
  | copy =>
    have e : view (copy s) = ObjArray.copy (arr s) := by
      simp only [copy, ObjArray.copy, view_withHeap]; simp [view, vec]
    rw [step, e]; exact base (op := .copy) hok hh
  | toList =>
    have e : view (toList s) = ObjArray.toList (arr s) := by
      simp only [toList, ObjArray.toList, view_withHeap]; simp [view, vec]
    rw [step, e]; exact base (op := .toList) hok hh
  | len =>
    have := base (op := .len) hok hh
    rw [step, size_vec]
    exact this

/-- The outcome itself: a state with the specified contents. -/
theorem LDoes.out {o : OLOut} {res : Spec.ORes} {lk : List Obj} (h : LDoes o s res lk) :
    ∃ s', o = (match res.2 with | .ok v => .ok s' v | .error e => .exc s' e) ∧ vec s' = res.1 ∧
      Adj s.heap s'.heap (delta (vec s) res lk) := by
  obtain ⟨h', e, a⟩ := h
  obtain ⟨l, r⟩ := res
  cases r with
  | ok v =>
    cases o <;> simp only [view, outOf] at e <;> cases e
    exact ⟨_, rfl, rfl, a⟩
  | error x =>
    cases o <;> simp only [view, outOf] at e <;> cases e
    exact ⟨_, rfl, rfl, a⟩

theorem play_ok (H : OHost) (strict : Bool) (es : List OEvent) :
    ∀ (ext base : Obj → Nat) (s : OLState),
    (∀ o, s.heap.imm o = false → s.heap.rc o = ext o + (vec s).count o + base o) →
    SessionOk H s.heap.imm ext (vec s) es →
    ∃ s', play H strict s es = some s' ∧ vec s' = Spec.contents H (vec s) es ∧ s'.heap.imm = s.heap.imm ∧
      ∀ o, s.heap.imm o = false → s'.heap.rc o =
        Spec.holdings H ext (vec s) es o + (vec s').count o + ((lost H (vec s) es).count o + base o) := by
  induction es with
  | nil =>
    intro ext base s hb _
    refine ⟨s, rfl, rfl, rfl, fun o ho => ?_⟩
    have := hb o ho
    simp only [Spec.holdings, lost, List.count_nil]
    omega
  | cons e es ih =>
    intro ext base s hb hok
    cases e with
    | call op =>
      obtain ⟨h1, h2, h3⟩ := hok
      have hc : Covered ext s.heap (vec s) := fun o ho => by have := hb o ho; omega
      obtain ⟨s1, e1, v1, a1⟩ := (step_does H strict hc h1 h2).out
      generalize hr : Spec.ostep H (vec s) op = res at *
      obtain ⟨l', r⟩ := res
      simp only at v1
      obtain ⟨s', p1, p2, p3, p4⟩ := ih (Spec.receive ext r) (fun o => base o + (leaked (vec s) op).count o) s1
        (by
          intro o ho
          rw [a1.1] at ho
          have q1 := a1.2 o ho
          have q2 := hb o ho
          simp only [delta] at q1
          simp only [Spec.receive]
          rw [v1]
          omega)
        (by rw [a1.1, v1]; exact h3)
      refine ⟨s', ?_, ?_, ?_, ?_⟩
      · rw [play, e1]
        cases r <;> exact p1
      · rw [p2, v1]; simp only [Spec.contents, hr]
      · rw [p3]; exact a1.1
      · intro o ho
        have q := p4 o (by rw [a1.1]; exact ho)
        simp only [Spec.holdings, lost, hr, List.count_append]
        rw [v1] at q
        omega
    | drop o =>
      obtain ⟨h1, h2⟩ := hok
      obtain ⟨h', e1, a1⟩ := decref_ok (h := s.heap) (o := o) (by
        by_cases him : s.heap.imm o = true
        · exact .inl him
        · right
          have := hb o (by simpa using him)
          have := h1.resolve_left him
          omega)
      obtain ⟨s', p1, p2, p3, p4⟩ := ih (Spec.release ext o) base ⟨s.list, h'⟩
        (by
          intro x hx
          rw [a1.1] at hx
          have q1 := a1.2 x hx
          have q2 := hb x hx
          dsimp only at q1
          simp only [Spec.release]
          show h'.rc x = _ + (vec s).count x + _
          by_cases e : x = o
          · subst e
            have h3 : 0 < ext x := h1.resolve_left (by simp [hx])
            have : List.count x [x] = 1 := by simp
            rw [if_pos rfl]
            omega
          · have : List.count x [o] = 0 := by simp [Ne.symm e]
            rw [if_neg e]
            omega)
        (by rw [a1.1]; exact h2)
      refine ⟨s', ?_, ?_, ?_, ?_⟩
      · rw [play, e1]; exact p1
      · rw [p2]; simp only [Spec.contents]; rfl
      · rw [p3]; exact a1.1
      · intro x hx
        have q := p4 x (by rw [a1.1]; exact hx)
        simp only [Spec.holdings, lost]
        have : vec ⟨s.list, h'⟩ = vec s := rfl
        rw [this] at q
        omega

theorem run_ok (H : OHost) (strict : Bool) (ops : List OOp) :
    ∀ s : OLState, Covered ext s.heap (vec s) → HistoryOk H (vec s) ops →
    (∀ op ∈ ops, Held ext s.heap op) → OAgreesAll ((run H strict s ops).map view) (Spec.orun H (vec s) ops) := by
  induction ops with
  | nil => intro s _ _ _; exact trivial
  | cons op ops ih =>
    intro s hc hok hh
    have hd := step_does H strict hc hok.1 (hh op (by simp))
    have hag := Does.agrees hd
    obtain ⟨s1, e1, v1, a1⟩ := hd.out
    rw [e1] at hag
    rw [run, Spec.orun, e1]
    have hok2 := hok.2
    generalize Spec.ostep H (vec s) op = res at *
    obtain ⟨l', r⟩ := res
    simp only at v1
    have hc' : Covered ext s1.heap (vec s1) := by
      rw [v1]
      exact ObjArray.Covered.mono (ObjArray.covered_after (s := arr s) hc a1) (fun o => Nat.le_add_right _ _)
    have := ih s1 hc' (by rw [v1]; exact hok2)
      (fun op' hop o ho => by rw [a1.1]; exact hh op' (by simp [hop]) o ho)
    rw [v1] at this
    cases r with
    | ok v => exact ⟨hag, this⟩
    | error e => exact ⟨hag, this⟩

end Verif.ObjLinked
