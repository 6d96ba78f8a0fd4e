import Verif.Lemmas.ObjArrayList
import Verif.Spec.ExactObj

/-! Helper lemmas: the exact domain of ObjectArrayList. -/

namespace Verif

open Heap

/-- An outcome that is known agrees with a specified one iff the two are the same. -/
theorem Does.iff {o : OOut} {s : OState} {res res' : Spec.ORes} {lk : List Obj} (h : Does o s res lk) :
    OAgrees o res' ↔ res = res' := by
  obtain ⟨h', rfl, -⟩ := h
  rcases res with ⟨l, e | v⟩ <;> rcases res' with ⟨l', e' | v'⟩ <;> simp [outOf, OAgrees]

namespace OObj

/-- The same objects, none of them equal to another. -/
def apart (H : OHost) : OHost := { H with rich := fun _ _ _ => .ok false }

theorem idEq_apart (H : OHost) (l : List Obj) (o : Obj) : IdEq (apart H) l o := fun _ _ _ => rfl

theorem search_apart (H : OHost) (l : List Obj) (o : Obj) :
    Spec.search (apart H) o l = .ok (l.findIdx? (· == o)) := ObjArray.search_id (idEq_apart H l o)

theorem findIdx_none {l : List Obj} {o : Obj} : l.findIdx? (· == o) = none ↔ o ∉ l := by
  rw [List.findIdx?_eq_none_iff]
  constructor
  · intro h hm
    have := h o hm
    simp at this
  · intro h x hx
    simp only [beq_eq_false_iff_ne, ne_eq]
    rintro rfl; exact h hx

/-- Looking for an element by equality ends at the element at the latest. -/
theorem search_le {H : OHost} {l : List Obj} {o : Obj} {p k : Nat} (hs : Spec.search H o l = .ok (some p))
    (hk : l.findIdx? (· == o) = some k) : p ≤ k := by
  induction l generalizing p k with
  | nil => cases hs
  | cons x xs ih =>
    rw [List.findIdx?_cons] at hk
    unfold Spec.search at hs
    by_cases hx : x = o
    · subst hx
      simp [Spec.same] at hs
      omega
    · rw [if_neg (by simpa using hx)] at hk
      obtain ⟨k', hk', rfl⟩ := Option.map_eq_some_iff.1 hk
      cases h1 : Spec.same H x o with
      | error e => rw [h1] at hs; cases hs
      | ok b =>
        rw [h1] at hs
        cases b with
        | true => simp only [Except.ok.injEq, Option.some.injEq] at hs; omega
        | false =>
          simp only at hs
          cases h2 : Spec.search H o xs with
          | error e => rw [h2] at hs; cases hs
          | ok r =>
            rw [h2] at hs
            simp only [Except.ok.injEq] at hs
            obtain ⟨p', hp', rfl⟩ := Option.map_eq_some_iff.1 hs
            subst hp'
            have := ih h2 hk'
            omega

/-- Taking out an earlier element than the first `o` gives another list. -/
theorem cut_eq {l : List Obj} {o : Obj} {p k : Nat} (hk : l.findIdx? (· == o) = some k) (hp : p ≤ k)
    (he : l.take p ++ l.drop (p + 1) = l.take k ++ l.drop (k + 1)) : p = k := by
  rw [List.findIdx?_eq_some_iff_getElem] at hk
  obtain ⟨hlt, h1, h2⟩ := hk
  have h1 : l[k] = o := by simpa using h1
  apply Classical.byContradiction
  intro hne
  have h3 : l[k - 1]'(by omega) ≠ o := by
    have := h2 (k - 1) (by omega)
    simpa using this
  have h4 : (l.take p ++ l.drop (p + 1))[k - 1]? = (l.take k ++ l.drop (k + 1))[k - 1]? := by rw [he]
  rw [List.getElem?_append_right (by simp; omega), List.getElem?_append_left (by simp; omega),
    List.getElem?_take_of_lt (by omega), List.getElem?_drop] at h4
  have e : p + 1 + (k - 1 - (l.take p).length) = k := by simp; omega
  rw [e, List.getElem?_eq_getElem hlt, List.getElem?_eq_getElem (by omega)] at h4
  simp only [Option.some.injEq] at h4
  exact h3 (h4.symm.trans h1)

/-- `remove` by identity and by equality. -/
theorem remove_iff (H : OHost) (l : List Obj) (o : Obj) :
    Spec.ostep (apart H) l (.remove o) = Spec.ostep H l (.remove o) ↔ Finds H l o := by
  unfold Finds
  simp only [Spec.ostep, search_apart]
  cases hk : l.findIdx? (· == o) with
  | none =>
    have hm := findIdx_none.1 hk
    simp only
    cases hs : Spec.search H o l with
    | error e => simp [hm, eq_comm]
    | ok r => cases r <;> simp
  | some k =>
    have hm : o ∈ l := Classical.byContradiction fun h => by rw [findIdx_none.2 h] at hk; cases hk
    cases hs : Spec.search H o l with
    | error e => simp [hm]
    | ok r =>
      cases r with
      | none => simp
      | some p =>
        simp only [Prod.mk.injEq, and_true, hm, not_true_eq_false, false_and, or_false, Except.ok.injEq,
          Option.some.injEq]
        constructor
        · intro he
          exact cut_eq hk (search_le hs hk) he.symm
        · rintro rfl; rfl

/-- `index` by identity and by equality within given bounds. -/
theorem found_iff (H : OHost) (l m : List Obj) (o : Obj) (lo : Nat) :
    ((match Spec.search (apart H) o m with
      | .error e => (l, .error e)
      | .ok none => (l, .error .valueError)
      | .ok (some p) => (l, .ok (.int (lo + p : Nat)))) : Spec.ORes) =
    (match Spec.search H o m with
      | .error e => (l, .error e)
      | .ok none => (l, .error .valueError)
      | .ok (some p) => (l, .ok (.int (lo + p : Nat)))) ↔ Finds H m o := by
  unfold Finds
  rw [search_apart]
  cases hk : m.findIdx? (· == o) with
  | none =>
    have hm := findIdx_none.1 hk
    simp only
    cases hs : Spec.search H o m with
    | error e => simp [hm, eq_comm]
    | ok r => cases r <;> simp
  | some k =>
    have hm : o ∈ m := Classical.byContradiction fun h => by rw [findIdx_none.2 h] at hk; cases hk
    cases hs : Spec.search H o m with
    | error e => simp [hm]
    | ok r =>
      cases r with
      | none => simp
      | some p =>
        simp only [Prod.mk.injEq, true_and, hm, not_true_eq_false, false_and, or_false, Except.ok.injEq,
          Option.some.injEq, OVal.int.injEq]
        omega

end OObj

namespace ObjArray

open OObj

variable {ext : Obj → Nat} {s : OState}

/-- The outcome is the specified one where `P` holds, and only there. -/
def Tight (o : OOut) (s : OState) (res : Spec.ORes) (lk : List Obj) (P : Prop) : Prop :=
  (P → Does o s res lk) ∧ (OAgrees o res → P)

theorem tight_of {o : OOut} {res res' : Spec.ORes} {lk : List Obj} {P : Prop} (h : Does o s res' lk)
    (hi : res' = res ↔ P) : Tight o s res lk P :=
  ⟨fun p => hi.2 p ▸ h, fun a => hi.1 (h.iff.1 a)⟩

theorem tight_always {o : OOut} {res : Spec.ORes} {lk : List Obj} (h : Does o s res lk) : Tight o s res lk True :=
  ⟨fun _ => h, fun _ => trivial⟩

theorem tight_ub {u : UB} {res : Spec.ORes} {lk : List Obj} : Tight (.ub u) s res lk False :=
  ⟨False.elim, fun h => by rcases res with ⟨l, e | v⟩ <;> exact h⟩

theorem Tight.congr {o : OOut} {res : Spec.ORes} {lk : List Obj} {P Q : Prop} (h : Tight o s res lk P)
    (hpq : P ↔ Q) : Tight o s res lk Q := ⟨fun q => h.1 (hpq.2 q), fun a => hpq.1 (h.2 a)⟩

/-! ### searching -/

theorem remove_tight (hc : Covered ext s.heap s.vec) (H : OHost) (o : Obj) :
    Tight (remove s o) s (Spec.ostep H s.vec (.remove o)) [] (Finds H s.vec o) :=
  tight_of (remove_does hc (idEq_apart H s.vec o)) (remove_iff H s.vec o)

theorem count_tight (H : OHost) (o : Obj) :
    Tight (count s o) s (Spec.ostep H s.vec (.count o)) [] (Spec.occurrences H o s.vec = .ok (s.vec.count o)) := by
  refine tight_of (count_does (idEq_apart H s.vec o)) ?_
  simp only [Spec.ostep, occurrences_id (idEq_apart H s.vec o)]
  cases Spec.occurrences H o s.vec with
  | error e => simp
  | ok n => simp only [Prod.mk.injEq, true_and, Except.ok.injEq, OVal.int.injEq]; omega

theorem contains_tight (H : OHost) (o : Obj) :
    Tight (contains H s o) s (Spec.ostep H s.vec (.contains o)) []
      ((Spec.search H o s.vec).map Option.isSome = .ok (H.isInt o && decide (o ∈ s.vec))) := by
  have hd : Does (contains H s o) s (s.vec, .ok (.bool (H.isInt o && decide (o ∈ s.vec)))) [] := by
    refine does_same rfl ?_
    unfold contains
    rw [findFrom_all]
    by_cases h : H.isInt o = true
    · rw [if_pos h, h]
      by_cases hm : o ∈ s.vec
      · have : (s.vec.findIdx? (· == o)).isSome = true := by
          cases hk : s.vec.findIdx? (· == o) with
          | none => exact absurd hm (findIdx_none.1 hk)
          | some k => rfl
        rw [this]; simp [hm, outOf]
      · rw [findIdx_none.2 hm]; simp [hm, outOf]
    · rw [if_neg h]
      simp only [Bool.not_eq_true] at h
      rw [h]; rfl
  refine tight_of hd ?_
  simp only [Spec.ostep]
  cases Spec.search H o s.vec with
  | error e => simp [Except.map]
  | ok r => simp [Except.map, eq_comm]

theorem index_bounded {o : Obj} {i j : Option Arg} (H : OHost)
    (hi : ArrayList.BoundOk i) (hj : ArrayList.BoundOk j) :
    Does (index s o i j) s (Spec.ostep (apart H) s.vec (.index o i j)) [] :=
  index_does (idEq_apart H s.vec o) hi hj

/-- A bound that is a number beyond the machine word. -/
theorem bound_wide {i : Option Arg} (h : ¬ ArrayList.BoundOk i) :
    ∃ x v, i = some x ∧ parseN x = (-1, some .overflowError) ∧ Spec.field i = .ok (some v) := by
  cases i with
  | none => exact absurd trivial h
  | some x =>
    cases x with
    | other => exact absurd trivial h
    | int v => exact ⟨_, v, rfl, if_neg h, rfl⟩
    | index v => exact ⟨_, v, rfl, if_neg h, rfl⟩

theorem bound_read {i : Option Arg} (h : ArrayList.BoundOk i) :
    (Spec.field i = .error .typeError ∧ ∃ x, i = some x ∧ parseN x = (-1, some .typeError)) ∨
    (i = none ∧ Spec.field i = .ok none) ∨
    (∃ x v, i = some x ∧ Spec.field i = .ok (some v) ∧ parseN x = (v, none)) := by
  apply ArrayList.word_field
  rintro x rfl
  cases x with
  | other => exact .inl rfl
  | int v | index v => right; exact ⟨v, by simp [Spec.word, show Spec.InRange 64 v from h]⟩

/-- With an OverflowError for a bound, the outcomes agree iff a comparison raises that too. -/
theorem overflow_tight (H : OHost) (l m : List Obj) (o : Obj) (lo : Nat) {out : OOut}
    (h : Does out s (l, .error .overflowError) []) :
    Tight out s (match Spec.search H o m with
      | .error e => (l, .error e)
      | .ok none => (l, .error .valueError)
      | .ok (some p) => (l, .ok (.int (lo + p : Nat)))) [] (Spec.search H o m = .error .overflowError) := by
  refine tight_of h ?_
  cases Spec.search H o m with
  | error e => simp [eq_comm]
  | ok r => cases r <;> simp

theorem index_tight (H : OHost) (o : Obj) (i j : Option Arg) :
    Tight (index s o i j) s (Spec.ostep H s.vec (.index o i j)) [] (IndexExact H s.vec o i j) := by
  by_cases hi : ArrayList.BoundOk i
  · by_cases hj : ArrayList.BoundOk j
    · refine tight_of (index_bounded H hi hj) ?_
      unfold IndexExact
      simp only [Spec.ostep]
      cases hfi : Spec.field i with
      | error e => simp
      | ok a =>
        cases hfj : Spec.field j with
        | error e => simp [hi]
        | ok b =>
          simp only [hi, hj, and_self, if_true]
          exact found_iff H _ _ o _
    · obtain ⟨y, v, rfl, h1, h2⟩ := bound_wide hj
      unfold IndexExact
      simp only [Spec.ostep, h2]
      rcases bound_read hi with ⟨h3, x, rfl, h4⟩ | ⟨rfl, h3⟩ | ⟨x, v1, rfl, h3, h4⟩
      · simp only [h3]
        refine tight_always ?_
        simp only [index, h4, h1]; exact does_err _
      · simp only [h3, hj, and_false, if_false]
        apply overflow_tight
        simp only [index, h1]; exact does_err _
      · simp only [h3, hj, and_false, if_false]
        apply overflow_tight
        simp only [index, h4, h1]; exact does_err _
  · obtain ⟨y, v, rfl, h1, h2⟩ := bound_wide hi
    have hm : Does (index s o (some y) j) s (s.vec, .error .overflowError) [] := by
      simp only [index, h1]; exact does_err _
    unfold IndexExact
    simp only [Spec.ostep, h2]
    cases hfj : Spec.field j with
    | error e =>
      refine tight_of hm ?_
      simp only [hi, iff_false]
      have : e = .typeError := by
        cases j with
        | none => cases hfj
        | some x => cases x <;> cases hfj; rfl
      subst this
      simp
    | ok b =>
      simp only [hi, false_and, if_false]
      exact overflow_tight H _ _ o _ hm

/-! ### pop -/

theorem pop_tight (H : OHost) (a : Option Arg) :
    Tight (pop s a) s (Spec.ostep H s.vec (.pop a)) [] (PopExact s.vec a) := by
  have old : ∀ a, OObj.popOk s.vec a → Does (pop s a) s (Spec.ostep H s.vec (.pop a)) [] := fun a h => pop_does h H
  cases a with
  | none => exact tight_always (old none trivial)
  | some a =>
    by_cases hn : s.vec = []
    · have hm : Does (pop s (some a)) s (s.vec, .error .indexError) [] := by
        have hl : s.vec.getLast? = none := by rw [hn]; rfl
        unfold pop; rw [hl]; exact does_err _
      refine tight_of hm ?_
      have hp : ∀ v : Int, Spec.position 0 v = none := by
        intro v; unfold Spec.position; rw [if_neg (by omega), if_neg (by omega)]
      cases a with
      | other => simp [Spec.ostep, Spec.word, PopExact, hn]
      | int v =>
        by_cases hf : FitsS 64 v
        · simp [Spec.ostep, Spec.word, PopExact, hn, show Spec.InRange 64 v from hf, hf, hp]
        · simp [Spec.ostep, Spec.word, PopExact, hn, show ¬ Spec.InRange 64 v from hf, hf]
      | index v =>
        by_cases hf : FitsS 64 v
        · simp [Spec.ostep, Spec.word, PopExact, hn, show Spec.InRange 64 v from hf, hf, hp]
        · simp [Spec.ostep, Spec.word, PopExact, hn, show ¬ Spec.InRange 64 v from hf, hf]
    · cases a with
      | other => exact (tight_always (old (some .other) hn)).congr ⟨fun _ => hn, fun _ => trivial⟩
      | int v => exact (tight_always (old (some (.int v)) (.inl hn))).congr ⟨fun _ => .inl hn, fun _ => trivial⟩
      | index v =>
        have hm : Does (pop s (some (.index v))) s (s.vec, .error .typeError) [] := by
          unfold pop
          cases hl : s.vec.getLast? with
          | none => exact absurd (List.getLast?_eq_none_iff.1 hl) hn
          | some x => exact does_err _
        refine tight_of hm ?_
        simp only [PopExact, hn, false_and, iff_false]
        simp only [Spec.ostep, Spec.word]
        by_cases hf : Spec.InRange 64 v
        · rw [if_pos hf]
          simp only
          cases Spec.position s.vec.length v <;> simp
        · rw [if_neg hf]; simp

/-! ### comparison -/

theorem neLoop_ok (H : OHost) (xs ys v : List Obj) (h : Heap) (hl : ∀ x ∈ xs, h.imm x = true ∨ 0 < h.rc x) :
    ∃ h', eqLoop H .ne true xs ys ⟨v, h⟩ = outOf (v, (anyNe H xs ys).map .bool) h' ∧ Adj h h' (fun _ => 0) := by
  induction xs generalizing ys h with
  | nil => exact ⟨h, by cases ys <;> rfl, Adj.refl h⟩
  | cons x xs ih =>
    cases ys with
    | nil => exact ⟨h, rfl, Adj.refl h⟩
    | cons y ys =>
      obtain ⟨h1, e1, a1⟩ := compare1_ok H .ne x y h (hl x (by simp))
      obtain ⟨h2, e2, a2⟩ := ih ys h1 (fun o ho => adj_zero_live a1 (hl o (by simp [ho])))
      rw [eqLoop]
      simp only [e1, anyNe, OHost.richBool]
      by_cases hxy : x = y
      · rw [if_pos hxy, if_pos hxy]
        exact ⟨h2, e2, (a1.trans a2).congr (by simp)⟩
      · rw [if_neg hxy, if_neg hxy]
        cases H.rich .ne x y with
        | error e => exact ⟨h1, rfl, a1⟩
        | ok b =>
          cases b with
          | true => exact ⟨h1, rfl, a1⟩
          | false => exact ⟨h2, e2, (a1.trans a2).congr (by simp)⟩

/-- What comparing with a list answers. -/
def cmpRes (H : OHost) (op : CmpOp) (l r : List Obj) : Except Exc Bool :=
  match op with
  | .eq => Spec.ocompare H .eq l r
  | .ne => if r.length ≠ l.length then .ok true else anyNe H l r
  | op => if r.length ≠ l.length then .ok (decide (l.length < r.length)) else byHead H op l r

theorem compare_list (hc : Covered ext s.heap s.vec) (H : OHost) (op : CmpOp) (r : List Obj) :
    Does (ObjArray.compare H op s (.list r)) s (s.vec, (cmpRes H op s.vec r).map .bool) [] := by
  have hlv : ∀ x ∈ s.vec, s.heap.imm x = true ∨ 0 < s.heap.rc x := fun x hx => hc.live hx
  have ordr : ∀ op : CmpOp, op ≠ .eq → op ≠ .ne → Does (ord H op s (.list r)) s
      (s.vec, (if r.length ≠ s.vec.length then Except.ok (decide (s.vec.length < r.length))
        else byHead H op s.vec r).map .bool) [] := by
    intro op h1 h2
    by_cases hlen : r.length = s.vec.length
    · rw [if_neg (by simpa using hlen)]
      cases hv : s.vec with
      | nil =>
        have hr : r = [] := by rw [hv] at hlen; simpa using hlen
        subst hr
        have e : ord H op s (.list []) = .ok s (.bool false) := by
          simp [ord, OSrc.size, OSrc.elems, hv]
        have e2 : Does (.ok s (.bool false)) s (s.vec, .ok (.bool false)) [] := does_same rfl rfl
        rw [hv] at e2
        rw [e]
        exact e2
      | cons x xs =>
        cases r with
        | nil => rw [hv] at hlen; simp at hlen
        | cons y ys =>
          rw [hv] at hlen
          have hl2 : xs.length = ys.length := by simpa using hlen.symm
          rw [ord_heads (src := .list (y :: ys)) hv rfl hl2]
          obtain ⟨h3, e3, a3⟩ := compare1_ok H op x y s.heap (hlv x (by simp [hv]))
          have hrb : H.richBool op x y = H.rich op x y := by
            unfold OHost.richBool
            split
            · cases op <;> first | rfl | contradiction
            · rfl
          simp only [e3, hrb, byHead]
          rw [← hv]
          cases H.rich op x y with
          | error e => exact does_zero rfl rfl a3
          | ok b => exact does_zero rfl rfl a3
    · rw [if_pos hlen, ord_lengths (src := .list r) rfl hlen]
      exact does_same rfl rfl
  cases op with
  | eq => exact compare_does (op := .eq) (src := .list r) hc trivial
  | ne =>
    simp only [ObjArray.compare, cmpRes]
    rw [eqNe_asList (src := .list r) rfl]
    by_cases hlen : r.length = s.vec.length
    · rw [if_neg (by simpa using hlen), if_neg (by simpa using hlen)]
      obtain ⟨h1, e1, a1⟩ := neLoop_ok H s.vec r s.vec s.heap hlv
      refine does_zero ?_ e1 a1
      cases anyNe H s.vec r <;> rfl
    · rw [if_pos hlen, if_pos hlen]
      exact does_same rfl rfl
  | lt => exact ordr .lt (by simp) (by simp)
  | le => exact ordr .le (by simp) (by simp)
  | gt => exact ordr .gt (by simp) (by simp)
  | ge => exact ordr .ge (by simp) (by simp)

theorem map_bool_inj {a b : Except Exc Bool} : a.map OVal.bool = b.map .bool ↔ a = b := by
  cases a <;> cases b <;> simp [Except.map]

theorem cmpRes_list (H : OHost) (op : CmpOp) (l r : List Obj) :
    cmpRes H op l r = Spec.ocompare H op l r ↔ CmpList H op l r := by
  cases op
  case eq => simp [cmpRes, CmpList]
  case ne =>
    unfold cmpRes CmpList
    by_cases hlen : r.length = l.length
    · simp [hlen, eq_comm]
    · simp [hlen, Spec.ocompare, show ¬ l.length = r.length from fun h => hlen h.symm]
  all_goals
    unfold cmpRes CmpList
    by_cases hlen : r.length = l.length
    · simp only [hlen, ne_eq, not_true_eq_false, if_false]; exact eq_comm
    · simp only [hlen, ne_eq, not_false_eq_true, if_true]; exact eq_comm

theorem cmp_tight (hc : Covered ext s.heap s.vec) (H : OHost) (op : CmpOp) (src : OSrc) :
    Tight (ObjArray.compare H op s src) s (Spec.ostep H s.vec (.cmp op src)) [] (CmpExact H op s.vec src) := by
  have lst : ∀ r, ObjArray.compare H op s src = ObjArray.compare H op s (.list r) →
      Spec.asList s.vec src = some r → Tight (ObjArray.compare H op s src) s (Spec.ostep H s.vec (.cmp op src)) []
        (CmpList H op s.vec r) := by
    intro r hr ha
    rw [hr]
    refine tight_of (compare_list hc H op r) ?_
    simp only [Spec.ostep, Spec.ocmp, ha, Prod.mk.injEq, true_and]
    rw [map_bool_inj, cmpRes_list]
  have oth : ∀ r, ObjArray.compare H op s src = ObjArray.compare H op s (.list r) →
      Spec.asList s.vec src = none → Tight (ObjArray.compare H op s src) s (Spec.ostep H s.vec (.cmp op src)) []
        (CmpOther H op s.vec r) := by
    intro r hr ha
    rw [hr]
    refine tight_of (compare_list hc H op r) ?_
    simp only [Spec.ostep, Spec.ocmp, ha, Prod.mk.injEq, true_and]
    have key : ∀ op : CmpOp, ((if r.length ≠ s.vec.length then Except.ok (decide (s.vec.length < r.length))
        else byHead H op s.vec r).map OVal.bool = .error .typeError) ↔
        (r.length = s.vec.length ∧ byHead H op s.vec r = .error .typeError) := by
      intro op
      by_cases hlen : r.length = s.vec.length
      · simp only [hlen, ne_eq, not_true_eq_false, if_false, true_and]
        cases byHead H op s.vec r <;> simp [Except.map]
      · simp [hlen, Except.map]
    cases op
    case eq =>
      simp only [cmpRes, CmpOther]
      cases Spec.ocompare H .eq s.vec r <;> simp [Except.map]
    case ne =>
      simp only [cmpRes, CmpOther]
      by_cases hlen : r.length = s.vec.length
      · simp only [hlen, ne_eq, not_true_eq_false, if_false, false_or]
        cases anyNe H s.vec r <;> simp [Except.map]
      · simp [hlen, Except.map]
    all_goals exact key _
  cases src with
  | same r => exact lst r (by cases op <;> rfl) rfl
  | list r => exact lst r rfl rfl
  | self => exact lst s.vec (by cases op <;> rfl) rfl
  | tuple r => exact oth r (by cases op <;> rfl) rfl
  | seq r => exact oth r (by cases op <;> rfl) rfl
  | seqNoLen r =>
    cases op
    case eq => exact ⟨fun h => absurd rfl h.1, fun h => h.elim⟩
    case ne => exact ⟨fun h => absurd rfl h.2, fun h => h.elim⟩
    all_goals exact ⟨fun _ => does_err _, fun _ => ⟨by simp, by simp⟩⟩
  | iter xs f =>
    cases op
    case eq => exact ⟨fun _ => does_same rfl rfl, fun _ => .inl rfl⟩
    case ne => exact ⟨fun _ => does_same rfl rfl, fun _ => .inr rfl⟩
    all_goals exact ⟨fun h => (by rcases h with h | h <;> cases h), fun h => h.elim⟩
  | notIterable =>
    cases op
    case eq => exact ⟨fun _ => does_same rfl rfl, fun _ => .inl rfl⟩
    case ne => exact ⟨fun _ => does_same rfl rfl, fun _ => .inr rfl⟩
    all_goals exact ⟨fun h => (by rcases h with h | h <;> cases h), fun h => h.elim⟩

/-! ### slice assignment -/

/-- Undefined behaviour or a result with an exception set. -/
def bad : OOut → Prop
  | .ub _ | .pending _ _ _ => True
  | _ => False

theorem bad_not {o : OOut} (h : bad o) (res : Spec.ORes) : ¬ OAgrees o res := by
  rcases res with ⟨l, e | v⟩ <;> cases o <;> first | exact absurd h id | exact id

theorem finish_bad (v : Slots) (h : Heap) (e : Exc) : bad (finishSlots v h (some e)) := by
  unfold finishSlots
  cases v.mapM id <;> exact trivial

/-- A sequence without length. -/
theorem replace_noLen (xs : List Obj) (start stop n : Int) (hn : 0 ≤ n) :
    bad (replace (.seqNoLen xs) start stop n (-1) s) := by
  unfold replace
  simp only
  rw [if_neg (by omega), if_pos (by omega)]
  split
  · exact trivial
  · split
    · exact trivial
    · split
      · exact trivial
      · split
        · exact finish_bad _ _ _
        · exact trivial

/-- A non-empty list assigned to a slice of itself. -/
theorem replace_self (start stop n : Int) (h0 : 0 ≤ start) (hsn : start + n ≤ s.vec.length)
    (hv : s.vec ≠ []) : bad (replace .self start stop n s.vec.length s) := by
  have hpos : 0 < s.vec.length := List.length_pos_iff.2 hv
  unfold replace
  simp only
  by_cases hm : (s.vec.length : Int) = n
  · rw [if_pos hm]
    have hs0 : start.toNat = 0 := by omega
    obtain ⟨k, hk⟩ : ∃ k, n.toNat = k + 1 := ⟨n.toNat - 1, by omega⟩
    rw [hs0, hk]
    obtain ⟨x, xs, hx⟩ : ∃ x xs, s.vec = x :: xs := List.exists_cons_of_ne_nil hv
    simp only [copyIn, fast, if_true, fastCopy, swapRefs, hx, List.map_cons, List.getElem?_cons_zero, srcSlots,
      Nat.add_zero, List.set_cons_zero]
    cases s.heap.decref x <;> exact trivial
  · rw [if_neg hm, if_neg (by omega)]
    split
    · exact trivial
    · simp only [fast, if_true]; exact trivial

theorem clamp_one {k : Int} (h : (if clampSsize k < -ssizeMax then -ssizeMax else clampSsize k) = 1) : k = 1 := by
  unfold clampSsize at h
  have e1 : ssizeMax = 9223372036854775807 := by decide
  have e2 : (2 : Int) ^ 63 = 9223372036854775808 := by decide
  simp only [e1, e2] at h
  omega

theorem setSlice_tight (hc : Covered ext s.heap s.vec) (hn : (s.vec.length : Int) ≤ ssizeMax) (sl : SliceArg)
    (src : OSrc) (H : OHost) (hh : ∀ o ∈ Spec.mentioned (.setSlice sl src), s.heap.imm o = true ∨ 0 < ext o) :
    (Exact H s.vec (.setSlice sl src) → ¬ growsUncounted s.vec sl src →
      Does (setSlice s sl src) s (Spec.ostep H s.vec (.setSlice sl src)) []) ∧
    (OAgrees (setSlice s sl src) (Spec.ostep H s.vec (.setSlice sl src)) ↔ Exact H s.vec (.setSlice sl src)) := by
  obtain ⟨u1, u2⟩ := sliceUnpack_fields sl
  cases hf : Spec.fields sl with
  | error e =>
    have hd : Does (setSlice s sl src) s (Spec.ostep H s.vec (.setSlice sl src)) [] := by
      simp only [setSlice, Spec.ostep, u1, hf]
      exact does_err _
    refine ⟨fun _ _ => hd, ?_⟩
    simp only [Exact, hf, iff_true]
    exact hd.agrees
  | ok f =>
    obtain ⟨i, j, k⟩ := f
    have of_tight : ∀ {P : Prop}, (Exact H s.vec (.setSlice sl src) ↔ P) →
        Tight (setSlice s sl src) s (Spec.ostep H s.vec (.setSlice sl src)) [] P →
        (Exact H s.vec (.setSlice sl src) → ¬ growsUncounted s.vec sl src →
          Does (setSlice s sl src) s (Spec.ostep H s.vec (.setSlice sl src)) []) ∧
        (OAgrees (setSlice s sl src) (Spec.ostep H s.vec (.setSlice sl src)) ↔
          Exact H s.vec (.setSlice sl src)) := by
      intro P hP ht
      exact ⟨fun h _ => ht.1 (hP.1 h), fun h => hP.2 (ht.2 h), fun h => (ht.1 (hP.1 h)).agrees⟩
    have noSeq : src.isSequence = false → Does (setSlice s sl src) s (s.vec, .error .typeError) [] := by
      intro h
      simp only [setSlice, u1, hf, h, Bool.not_false, if_true]
      exact does_err _
    -- a step other than 1
    have stepped : src.isSequence = true → k ≠ 1 →
        Does (setSlice s sl src) s (s.vec, .error .notImplementedError) [] := by
      intro h hk
      simp only [setSlice, u1, hf, h, Bool.not_true, Bool.false_eq_true, if_false]
      rw [if_pos (fun e => hk (clamp_one e))]
      exact does_err _
    have stepped_not : ∀ xs, src.isSequence = true → Spec.oitems s.vec src = .ok (xs, none) → k ≠ 1 →
        ¬ OAgrees (setSlice s sl src) (Spec.ostep H s.vec (.setSlice sl src)) := by
      intro xs h1 h2 hk ha
      have := (stepped h1 hk).iff.1 ha
      simp only [Spec.ostep, hf, h2, if_neg hk] at this
      split at this <;> simp at this
    -- the cases with step 1
    have unit : k = 1 → ∃ start stop cnt, src.isSequence = true →
        setSlice s sl src = replace src start stop cnt (src.size s.vec) s ∧ 0 ≤ start ∧ 0 ≤ cnt ∧
          start + cnt ≤ s.vec.length := by
      rintro rfl
      obtain ⟨start, stop, cnt, hadj, ⟨⟨k1, k2, k3⟩, hu⟩, q1, q2, b1, b2, b3, b4, hcn, hpos⟩ := slice_one hn hf
      obtain ⟨rfl, hadj⟩ := hadj _ _ _ hu
      refine ⟨start, stop, cnt, fun h => ⟨?_, b1, by omega, by omega⟩⟩
      simp only [setSlice, hu, hadj, h, Bool.not_true, Bool.false_eq_true, if_false, ne_eq, not_true_eq_false]
    have sizedCase : ∀ xs, sized src = some xs → (Exact H s.vec (.setSlice sl src) ↔ k = 1) →
        (Exact H s.vec (.setSlice sl src) → ¬ growsUncounted s.vec sl src →
          Does (setSlice s sl src) s (Spec.ostep H s.vec (.setSlice sl src)) []) ∧
        (OAgrees (setSlice s sl src) (Spec.ostep H s.vec (.setSlice sl src)) ↔
          Exact H s.vec (.setSlice sl src)) := by
      intro xs hs hE
      have hit : Spec.oitems s.vec src = .ok (xs, none) := by
        cases src <;> simp [sized] at hs <;> subst hs <;> rfl
      have hsq : src.isSequence = true := (elems_sized hs s.vec).2.2.1
      have counted : k = 1 → ¬ growsUncounted s.vec sl src →
          Does (setSlice s sl src) s (Spec.ostep H s.vec (.setSlice sl src)) [] := by
        intro hk hg
        refine setSlice_does hc H ⟨hn, .inr ⟨by rw [hs]; rfl, ?_, hg⟩⟩ hh
        intro i' j' k' h'
        rw [hf] at h'
        simp only [Except.ok.injEq, Prod.mk.injEq] at h'
        rw [← h'.2.2]; exact hk
      refine ⟨fun h => counted (hE.1 h), fun h => hE.2 (Classical.byContradiction fun hk =>
        stepped_not xs hsq hit hk h), fun h => ?_⟩
      have hk := hE.1 h
      by_cases hg : growsUncounted s.vec sl src
      · subst hk
        obtain ⟨start, stop, cnt, hadj, ⟨⟨k1, k2, k3⟩, hu⟩, q1, q2, b1, b2, b3, b4, hcn, hpos⟩ := slice_one hn hf
        obtain ⟨rfl, hadj⟩ := hadj _ _ _ hu
        obtain ⟨-, z2, z3, z4⟩ := elems_sized hs s.vec
        have hme : Spec.mentioned (.setSlice sl src) = xs := by
          cases src <;> simp [sized] at hs <;> subst hs <;> rfl
        have hfast : fast src = true ∧ (Spec.positions s.vec.length i j 1).length < xs.length := by
          unfold growsUncounted at hg
          rw [hf] at hg
          cases src <;> simp [sized] at hs <;> subst hs <;> first | exact ⟨rfl, hg⟩ | exact absurd hg id
        simp only [setSlice, Spec.ostep, hu, hf, hadj, z2, z3, hit, Bool.not_true, Bool.false_eq_true, if_false,
          ne_eq, not_true_eq_false, if_true]
        have hA : s.vec = s.vec.take start.toNat ++ (s.vec.drop start.toNat).take (stop.toNat - start.toNat) ++
            s.vec.drop (max start.toNat stop.toNat) := by
          have e : max start.toNat stop.toNat = start.toNat + (stop.toNat - start.toNat) := by omega
          rw [e, ← List.drop_drop, List.append_assoc, List.take_append_drop, List.take_append_drop]
        have hDl : ((s.vec.drop start.toNat).take (stop.toNat - start.toNat)).length = stop.toNat - start.toNat := by
          simp; omega
        obtain ⟨h1, e1, -⟩ := replace_grow hs (s.vec.take start.toNat)
          ((s.vec.drop start.toNat).take (stop.toNat - start.toNat)) (s.vec.drop (max start.toNat stop.toNat))
          start stop cnt hA (by simp; omega) (by rw [hDl]; exact hcn) (by rw [hDl, ← hpos]; exact hfast.2) hfast.1
          hc (by rw [← hme]; exact hh)
        rw [e1]
        refine ⟨?_, rfl⟩
        simp only [Spec.spliceAt, ← q1, ← q2]
      · exact (counted hk hg).agrees
    cases src with
    | notIterable =>
      refine of_tight (P := True) (by simp [Exact, hf]) (tight_of (noSeq rfl) ?_)
      simp [Spec.ostep, hf, Spec.oitems]
    | iter xs f =>
      refine of_tight (P := f = some .typeError) (by simp [Exact, hf]) (tight_of (noSeq rfl) ?_)
      simp only [Spec.ostep, hf, Spec.oitems]
      cases f with
      | none =>
        simp only [reduceCtorEq, iff_false]
        split
        · simp
        · split <;> simp
      | some e => simp [eq_comm]
    | seqNoLen xs =>
      refine of_tight (P := False) (by simp [Exact, hf]) ⟨False.elim, fun h => ?_⟩
      by_cases hk : k = 1
      · obtain ⟨start, stop, cnt, hu⟩ := unit hk
        obtain ⟨hu, -, hcnt, -⟩ := hu rfl
        rw [hu] at h
        exact bad_not (replace_noLen xs start stop cnt hcnt) _ h
      · exact stepped_not xs rfl rfl hk h
    | self =>
      refine of_tight (P := k = 1 ∧ s.vec = []) (by simp [Exact, hf]) ⟨?_, fun h => ?_⟩
      · rintro ⟨rfl, hv⟩
        obtain ⟨start, stop, cnt, hu⟩ := unit rfl
        obtain ⟨hu, h0, hcnt, hsum⟩ := hu rfl
        rw [hv] at hsum
        have e1 : cnt = 0 := by simp at hsum; omega
        rw [hu]
        have e2 : Spec.ostep H s.vec (.setSlice sl .self) = (s.vec, .ok .none) := by
          simp [Spec.ostep, hf, Spec.oitems, hv, Spec.spliceAt]
        rw [e2]
        refine does_same rfl ?_
        obtain ⟨v, h⟩ := s
        simp only at hv
        subst hv
        subst e1
        simp [replace, OSrc.size, copyIn, fast, fastCopy, swapRefs, srcSlots, finishSlots, outOf]
      · refine ⟨Classical.byContradiction fun hk => stepped_not s.vec rfl rfl hk h, ?_⟩
        apply Classical.byContradiction
        intro hv
        have hk : k = 1 := Classical.byContradiction fun hk => stepped_not s.vec rfl rfl hk h
        obtain ⟨start, stop, cnt, hu⟩ := unit hk
        obtain ⟨hu, h0, hcnt, hsum⟩ := hu rfl
        rw [hu] at h
        exact bad_not (replace_self start stop cnt h0 hsum hv) _ h
    | same v => exact sizedCase v rfl (by simp [Exact, hf])
    | list v => exact sizedCase v rfl (by simp [Exact, hf])
    | tuple v => exact sizedCase v rfl (by simp [Exact, hf])
    | seq v => exact sizedCase v rfl (by simp [Exact, hf])

/-! ### all calls -/

theorem step_tight (cfg : Cfg) (H : OHost) (fuel : Nat) (hfu : 0 < fuel) (hc : Covered ext s.heap s.vec)
    (hn : (s.vec.length : Int) ≤ ssizeMax) (op : OOp) (hh : Held ext s.heap op) :
    (Exact H s.vec op → Counted H s.heap.imm s.vec op →
      Does (step cfg H fuel s op) s (Spec.ostep H s.vec op) (leaked s.vec op)) ∧
    (OAgrees (step cfg H fuel s op) (Spec.ostep H s.vec op) ↔ Exact H s.vec op) := by
  have of_tight : Tight (step cfg H fuel s op) s (Spec.ostep H s.vec op) (leaked s.vec op) (Exact H s.vec op) →
      (Exact H s.vec op → Counted H s.heap.imm s.vec op →
        Does (step cfg H fuel s op) s (Spec.ostep H s.vec op) (leaked s.vec op)) ∧
      (OAgrees (step cfg H fuel s op) (Spec.ostep H s.vec op) ↔ Exact H s.vec op) := fun h =>
    ⟨fun p _ => h.1 p, h.2, fun p => (h.1 p).agrees⟩
  -- calls whose exact domain is the old one
  have old : (Exact H s.vec op → OpOk H s.heap.imm s.vec op) →
      (¬ Exact H s.vec op → ¬ OAgrees (step cfg H fuel s op) (Spec.ostep H s.vec op)) →
      Tight (step cfg H fuel s op) s (Spec.ostep H s.vec op) (leaked s.vec op) (Exact H s.vec op) := fun h1 h2 =>
    ⟨fun p => step_does cfg H fuel hfu hc (h1 p) hh, fun a => Classical.byContradiction fun n => h2 n a⟩
  have always : (Exact H s.vec op ↔ True) → OpOk H s.heap.imm s.vec op →
      Tight (step cfg H fuel s op) s (Spec.ostep H s.vec op) (leaked s.vec op) (Exact H s.vec op) := fun h1 h2 =>
    old (fun _ => h2) (fun n => absurd (h1.2 trivial) n)
  cases op with
  | append o => exact of_tight (always (by simp [Exact]) trivial)
  | insert i o => exact of_tight (always (by simp [Exact]) trivial)
  | mul n => exact of_tight (always (by simp [Exact]) trivial)
  | rmul a => exact of_tight (always (by simp [Exact]) trivial)
  | reverse => exact of_tight (always (by simp [Exact]) trivial)
  | clear => exact of_tight (always (by simp [Exact]) trivial)
  | copy => exact of_tight (always (by simp [Exact]) trivial)
  | toList => exact of_tight (always (by simp [Exact]) trivial)
  | len => exact of_tight (always (by simp [Exact]) trivial)
  | remove o => exact of_tight (remove_tight hc H o)
  | index o i j => exact of_tight (index_tight H o i j)
  | count o => exact of_tight (count_tight H o)
  | contains o => exact of_tight (contains_tight H o)
  | pop a => exact of_tight (pop_tight H a)
  | cmp op src => exact of_tight (cmp_tight hc H op src)
  | setSlice sl src => exact setSlice_tight hc hn sl src H hh
  | resize a =>
    refine ⟨fun _ hcnt => step_does cfg H fuel hfu hc (op := .resize a) ?_ hh, ?_⟩
    · cases a <;> exact hcnt
    · simp only [Exact, iff_true]
      cases a with
      | index v => exact (does_err _).agrees
      | other => exact (does_err _).agrees
      | int v =>
        simp only [step, resize, asSsize, Spec.ostep]
        by_cases h : FitsS 64 v
        · simp only [h, if_true, show Spec.InRange 64 v from h, and_true]
          by_cases h0 : 0 ≤ v
          · rw [if_neg (by omega), if_pos h0]; exact ⟨rfl, rfl⟩
          · rw [if_pos (by omega), if_neg h0]; exact ⟨rfl, rfl⟩
        · have h' : ¬ Spec.InRange 64 v := h
          simp only [h, h', and_false, if_false]
          exact ⟨rfl, rfl⟩
  | get k =>
    cases k with
    | slice sl => exact of_tight (always (by simp [Exact]) hn)
    | idx a =>
      refine of_tight (old id fun hne => ?_)
      have : a = .other := by simpa [Exact] using hne
      subst this
      exact bad_not (o := .ub .typeConfusion) trivial _
  | setItem a o =>
    refine of_tight (old id fun hne => ?_)
    have : a = .other := by simpa [Exact] using hne
    subst this
    exact bad_not (o := .ub .typeConfusion) trivial _
  | del k =>
    cases k with
    | slice sl =>
      refine of_tight (old id fun hne => ?_)
      have : ∃ f, Spec.fields sl = .ok f := by simpa [Exact] using hne
      obtain ⟨f, hf⟩ := this
      have e : step cfg H fuel s (.del (.slice sl)) = .ub .nullDeref := by
        simp only [step, del, (sliceUnpack_fields sl).1, hf]
      rw [e]
      exact bad_not (o := .ub .nullDeref) trivial _
    | idx a =>
      refine of_tight (old id fun hne => ?_)
      have : a = .other := by simpa [Exact] using hne
      subst this
      exact bad_not (o := .ub .typeConfusion) trivial _
  | extend src =>
    refine of_tight (old id fun hne => ?_)
    have : src = .self := by simpa [Exact] using hne
    subst this
    exact bad_not (o := .ub .badIterator) trivial _
  | iadd src =>
    refine of_tight (old id fun hne => ?_)
    cases src with
    | self =>
      apply bad_not
      simp only [step, iadd]
      cases s.heap.increfs s.vec <;> exact trivial
    | same v =>
      simp only [step, iadd, Spec.ostep, Spec.oabsorb, Spec.oitems]
      cases s.heap.increfs v with
      | error u => exact bad_not (o := .ub u) trivial _
      | ok h => exact fun h => by cases h.2
    | _ => exact absurd ⟨by simp, by simp⟩ hne
  | add src =>
    refine of_tight (old id fun hne => ?_)
    cases src with
    | self => exact fun h => h
    | same v => exact fun h => h
    | _ => exact absurd ⟨by simp, by simp⟩ hne
  | imul n =>
    refine of_tight (old id fun hne => ?_)
    have : ¬ n ≤ 1 ∧ s.vec ≠ [] := by simpa [Exact, not_or] using hne
    obtain ⟨h1, hv⟩ := this
    have e : step cfg H fuel s (.imul n) = .ub .neverReturns := by
      simp only [step, imul]
      rw [if_neg (by omega : ¬ n < 0), if_neg (by omega)]
      obtain ⟨k, hk⟩ : ∃ k, n.toNat - 1 = k + 1 := ⟨n.toNat - 2, by omega⟩
      rw [hk, imulOuter, imulInner_none fuel 0 s.vec s.heap (List.length_pos_iff.2 hv) (fun o ho => hc.live ho)]
    rw [e]
    exact bad_not (o := .ub .neverReturns) trivial _

/-- Histories whose calls count what they store: every outcome agrees iff every call is exact. -/
theorem run_tight (cfg : Cfg) (H : OHost) (fuel : Nat) (hfu : 0 < fuel) (ops : List OOp) :
    ∀ s : OState, Covered ext s.heap s.vec →
    (∀ res ∈ Spec.orun H s.vec ops, (res.1.length : Int) ≤ ssizeMax) → (s.vec.length : Int) ≤ ssizeMax →
    HistoryCounted H s.heap.imm s.vec ops → (∀ op ∈ ops, Held ext s.heap op) →
    (OAgreesAll (run cfg H fuel s ops) (Spec.orun H s.vec ops) ↔ HistoryExact H s.vec ops) := by
  induction ops with
  | nil => intro s _ _ _ _ _; exact ⟨fun _ => trivial, fun _ => trivial⟩
  | cons op ops ih =>
    intro s hc hlen hn hcnt hh
    obtain ⟨hd, hi⟩ := step_tight cfg H fuel hfu hc hn op (hh op (by simp))
    simp only [HistoryExact, Spec.orun]
    by_cases he : Exact H s.vec op
    · have hag := hi.2 he
      obtain ⟨h', e1, a1⟩ := hd he hcnt.1
      rw [run, e1]
      rw [e1] at hag
      have hcnt2 := hcnt.2
      have hlen2 : ∀ res ∈ Spec.orun H (Spec.ostep H s.vec op).1 ops, (res.1.length : Int) ≤ ssizeMax :=
        fun res hr => hlen res (by rw [Spec.orun]; exact List.mem_cons_of_mem _ hr)
      have hn2 : ((Spec.ostep H s.vec op).1.length : Int) ≤ ssizeMax :=
        hlen _ (by rw [Spec.orun]; exact List.mem_cons_self)
      generalize Spec.ostep H s.vec op = res at *
      obtain ⟨l', r⟩ := res
      have hc' : Covered ext h' l' := Covered.mono (covered_after hc a1) (fun o => Nat.le_add_right _ _)
      have := ih ⟨l', h'⟩ hc' hlen2 hn2 (by rw [a1.1]; exact hcnt2)
        (fun op' hop o ho => by rw [a1.1]; exact hh op' (by simp [hop]) o ho)
      cases r with
      | ok v => exact ⟨fun h => ⟨he, this.1 h.2⟩, fun h => ⟨hag, this.2 h.2⟩⟩
      | error e => exact ⟨fun h => ⟨he, this.1 h.2⟩, fun h => ⟨hag, this.2 h.2⟩⟩
    · constructor
      · intro h
        exfalso
        apply he
        rw [run] at h
        apply hi.1
        cases hst : step cfg H fuel s op <;> rw [hst] at h <;> exact h.1
      · exact fun h => absurd h.1 he

end ObjArray
end Verif
