import Verif.Lemmas.Heap
import Verif.Lemmas.IntArrayList

/-! Helper lemmas: ObjectArrayList against the Python-list specification, with the change of every count. -/

namespace Verif

/-- The model's outcome with the specified contents and result. -/
def outOf (res : Spec.ORes) (h : Heap) : OOut :=
  match res with
  | (l, .ok v) => .ok ⟨l, h⟩ v
  | (l, .error e) => .exc ⟨l, h⟩ e

/-- Change of the count of `x`: elements gained and lost, references handed out, references lost. -/
def delta (l : List Obj) (res : Spec.ORes) (lk : List Obj) (x : Obj) : Int :=
  (res.1.count x : Nat) - (l.count x : Nat) + ((Spec.carried res.2).count x : Nat) + (lk.count x : Nat)

/-- The outcome is the specified one and the counts change accordingly. -/
def Does (o : OOut) (s : OState) (res : Spec.ORes) (lk : List Obj) : Prop :=
  ∃ h', o = outOf res h' ∧ Heap.Adj s.heap h' (delta s.vec res lk)

theorem Does.agrees {o : OOut} {s : OState} {res : Spec.ORes} {lk : List Obj} (h : Does o s res lk) :
    OAgrees o res := by
  obtain ⟨h', rfl, -⟩ := h
  rcases res with ⟨l, v | e⟩ <;> simp [outOf, OAgrees]

namespace ObjArray

open Heap

/-- Nothing happened to the counts. -/
theorem does_same {s : OState} {r : Except Exc OVal} (hc : Spec.carried r = []) {o : OOut}
    (ho : o = outOf (s.vec, r) s.heap) : Does o s (s.vec, r) [] := by
  refine ⟨s.heap, ho, (Adj.refl _).congr fun x => ?_⟩
  simp [delta, hc]

theorem does_err {s : OState} (e : Exc) : Does (.exc s e) s (s.vec, .error e) [] := does_same rfl rfl

theorem pushNew_ok (xs : List Obj) (s : OState) :
    ∃ h', pushNew xs s = ⟨s.vec ++ xs, h'⟩ ∧ Adj s.heap h' (fun x => (xs.count x : Nat)) := by
  induction xs generalizing s with
  | nil => exact ⟨s.heap, by simp [pushNew], (Adj.refl _).congr (by simp)⟩
  | cons o os ih =>
    obtain ⟨h1, e1, a1⟩ := ih ⟨s.vec ++ [o], s.heap.gain o⟩
    refine ⟨h1, by simp [pushNew, e1], ((gain_adj s.heap o).trans a1).congr fun x => ?_⟩
    exact (count_cons_int o x os).symm

variable {ext : Obj → Nat} {s : OState}

theorem append_does (hc : Covered ext s.heap s.vec) {o : Obj} (ho : s.heap.imm o = true ∨ 0 < ext o) (H : OHost) :
    Does (append s o) s (Spec.ostep H s.vec (.append o)) [] := by
  obtain ⟨h1, e1, a1⟩ := incref_ok (hc.live_ext ho)
  refine ⟨h1, by simp [append, withHeap, e1, Spec.ostep, outOf], a1.congr fun x => ?_⟩
  simp [delta, Spec.ostep, Spec.carried, List.count_append]; omega

theorem extendIter_does (xs : List Obj) (f : Option Exc) (r : OVal) (hr : r = .none ∨ r = .self) :
    Does (extendIter s xs f r) s (match f with | some e => (s.vec ++ xs, .error e) | none => (s.vec ++ xs, .ok r))
      [] := by
  obtain ⟨h1, e1, a1⟩ := pushNew_ok xs s
  refine ⟨h1, ?_, a1.congr fun x => ?_⟩
  · cases f <;> simp [extendIter, e1, outOf]
  · cases f <;> rcases hr with rfl | rfl <;> simp [delta, Spec.carried, List.count_append] <;> omega

theorem inc_all (hc : Covered ext s.heap s.vec) {v : List Obj} (hv : ∀ o ∈ v, s.heap.imm o = true ∨ 0 < ext o) :
    ∃ h', s.heap.increfs v = .ok h' ∧ Adj s.heap h' (fun x => (v.count x : Nat)) :=
  increfs_ok fun o ho => hc.live_ext (hv o ho)

theorem inc_vec (hc : Covered ext s.heap s.vec) :
    ∃ h', s.heap.increfs s.vec = .ok h' ∧ Adj s.heap h' (fun x => (s.vec.count x : Nat)) :=
  increfs_ok fun _ ho => hc.live ho

theorem extend_does (hc : Covered ext s.heap s.vec) {src : OSrc} (hs : src ≠ .self)
    (hh : ∀ o ∈ Spec.mentioned (.extend src), s.heap.imm o = true ∨ 0 < ext o) (H : OHost) :
    Does (extend s src) s (Spec.ostep H s.vec (.extend src)) [] := by
  cases src with
  | self => exact absurd rfl hs
  | same v | list v =>
    obtain ⟨h1, e1, a1⟩ := inc_all hc (v := v) hh
    refine ⟨h1, by simp [extend, withHeap, e1, Spec.ostep, Spec.oabsorb, Spec.oitems, outOf], a1.congr fun x => ?_⟩
    simp [delta, Spec.ostep, Spec.oabsorb, Spec.oitems, Spec.carried, List.count_append]; omega
  | tuple xs | seq xs | seqNoLen xs => exact extendIter_does xs none .none (.inl rfl)
  | iter xs f =>
    have := extendIter_does (s := s) xs f .none (.inl rfl)
    cases f <;> exact this
  | notIterable => exact does_err _

theorem iadd_does {src : OSrc} (hs : src ≠ .self) (hs2 : ∀ v, src ≠ .same v) (H : OHost) :
    Does (iadd s src) s (Spec.ostep H s.vec (.iadd src)) [] := by
  cases src with
  | self => exact absurd rfl hs
  | same v => exact absurd rfl (hs2 v)
  | list xs | tuple xs | seq xs | seqNoLen xs => exact extendIter_does xs none .self (.inr rfl)
  | iter xs f =>
    have := extendIter_does (s := s) xs f .self (.inr rfl)
    cases f <;> exact this
  | notIterable => exact does_err _

/-! ### indices -/

theorem count_take_drop (l : List Obj) (p : Nat) (hp : p < l.length) (x : Obj) :
    (l.count x : Int) = ((l.take p ++ l.drop (p + 1)).count x : Nat) + ([l.getD p 0].count x : Nat) := by
  have : l = l.take p ++ l.getD p 0 :: l.drop (p + 1) := by
    rw [List.getD_eq_getElem?_getD, List.getElem?_eq_getElem hp]
    simp
  have h2 := congrArg (fun z => (z.count x : Int)) this
  simp only [List.count_append, Int.natCast_add] at h2 ⊢
  rw [count_cons_int] at h2
  omega

theorem pop_eq (s : OState) (a : Option Arg) (ha : ∀ v, a ≠ some (.index v)) :
    pop s a = (if s.vec = [] then .exc s .indexError else
      match (match a with | none => Except.ok (-1) | some a => Spec.word .overflowError a) with
      | .error e => .exc s e
      | .ok i => match Spec.position s.vec.length i with
        | none => .exc s .indexError
        | some p => .ok ⟨s.vec.take p ++ s.vec.drop (p + 1), s.heap⟩ (.obj (s.vec.getD p 0))) := by
  unfold pop
  generalize hl' : s.vec = l
  by_cases hl : l = []
  · subst hl; simp
  · rw [if_neg hl]
    have hlast : l.getLast? = some (l.getLast hl) := List.getLast?_eq_some_getLast hl
    rw [hlast]
    simp only
    cases a with
    | none =>
      simp only
      have h := ArrayList.getLast?_position l 0
      rw [hlast] at h
      cases hp : Spec.position l.length (-1) with
      | none => rw [hp] at h; simp at h
      | some p =>
        rw [hp] at h
        simp only [Option.map_some, Option.some.injEq] at h
        rw [h]
        have hpp : p = l.length - 1 := by
          have hlen : 0 < l.length := List.length_pos_iff.2 hl
          unfold Spec.position at hp
          rw [if_neg (by omega), if_pos (by omega)] at hp
          cases hp; rfl
        simp only
        have : l.drop (p + 1) = [] := by
          apply List.drop_eq_nil_of_le; omega
        rw [this, hpp, List.dropLast_eq_take]
        simp
    | some a =>
      have hs : asSsize a = (match Spec.word .overflowError a with | .ok v => (v, none) | .error e => (-1, some e)) := by
        cases a with
        | index v => exact absurd rfl (ha v)
        | other => rfl
        | int v => exact ArrayList.parseN_eq (.int v)
      simp only [hs]
      cases Spec.word .overflowError a with
      | error e => rfl
      | ok i =>
        simp only
        rw [ArrayList.position_eq]
        simp only
        generalize (if i < 0 then i + (l.length : Int) else i) = j
        split
        · rfl
        · have hj : j.toNat < l.length := by omega
          simp [hj, List.eraseIdx_eq_take_drop_succ]

theorem pop_does {a : Option Arg} (ha : OObj.popOk s.vec a) (H : OHost) :
    Does (pop s a) s (Spec.ostep H s.vec (.pop a)) [] := by
  rw [pop_eq s a (by rintro v rfl; exact ha)]
  simp only [Spec.ostep]
  by_cases hl : s.vec = []
  · rw [if_pos hl]
    have hpos : ∀ i, Spec.position s.vec.length i = none := by
      intro i
      cases hp : Spec.position s.vec.length i with
      | none => rfl
      | some p => have := ArrayList.position_lt hp; simp [hl] at this
    cases a with
    | none => simp only [hpos]; exact does_err _
    | some a =>
      cases a with
      | index v => exact absurd ha id
      | other => exact absurd hl ha
      | int v =>
        have hv : FitsS 64 v := by rcases ha with h1 | h1; exact absurd hl h1; exact h1
        simp only [Spec.word, show Spec.InRange 64 v from hv, if_true, hpos]
        exact does_err _
  · rw [if_neg hl]
    have key : ∀ w : Except Exc Int, Does (match w with
        | .error e => .exc s e
        | .ok i => match Spec.position s.vec.length i with
          | none => .exc s .indexError
          | some p => .ok ⟨s.vec.take p ++ s.vec.drop (p + 1), s.heap⟩ (.obj (s.vec.getD p 0))) s
        (match w with
        | .error e => (s.vec, .error e)
        | .ok i => match Spec.position s.vec.length i with
          | none => (s.vec, .error .indexError)
          | some p => (s.vec.take p ++ s.vec.drop (p + 1), .ok (.obj (s.vec.getD p 0)))) [] := by
      intro w
      cases w with
      | error e => exact does_err _
      | ok i =>
        simp only
        cases hp : Spec.position s.vec.length i with
        | none => exact does_err _
        | some p =>
          refine ⟨s.heap, rfl, (Adj.refl _).congr fun x => ?_⟩
          have := count_take_drop s.vec p (ArrayList.position_lt hp) x
          simp only [delta, Spec.carried, List.count_nil]
          omega
    cases a with
    | none => exact key (.ok (-1))
    | some a => exact key (Spec.word .overflowError a)

theorem insert_does (hc : Covered ext s.heap s.vec) {i : Arg} {o : Obj}
    (ho : s.heap.imm o = true ∨ 0 < ext o) (H : OHost) :
    Does (insert s i o) s (Spec.ostep H s.vec (.insert i o)) [] := by
  simp only [insert, ArrayList.parseN_eq, Spec.ostep]
  cases Spec.word .overflowError i with
  | error e => exact does_err _
  | ok i =>
    simp only
    have e : (if i < 0 then max 0 ((s.vec.length : Int) + i) else if i > s.vec.length then (s.vec.length : Int) else i) =
        Spec.clampUp s.vec.length i := by
      unfold Spec.clampUp Spec.fromFront; omega
    rw [e]
    have h0 : 0 ≤ Spec.clampUp s.vec.length i ∧ Spec.clampUp s.vec.length i ≤ s.vec.length := by
      unfold Spec.clampUp; omega
    rw [if_pos h0]
    obtain ⟨h1, e1, a1⟩ := incref_ok (hc.live_ext ho)
    refine ⟨h1, by simp [withHeap, e1, outOf], a1.congr fun x => ?_⟩
    generalize (Spec.clampUp s.vec.length i).toNat = p
    have e2 : s.vec.count x = (s.vec.take p).count x + (s.vec.drop p).count x := by
      rw [← List.count_append, List.take_append_drop]
    have e3 := count_cons_int o x (s.vec.drop p)
    simp only [delta, Spec.carried, List.count_nil, List.count_append]
    omega

/-! ### searching -/

theorem search_id {H : OHost} {o : Obj} {l : List Obj} (h : OObj.IdEq H l o) :
    Spec.search H o l = .ok (l.findIdx? (· == o)) := by
  induction l with
  | nil => rfl
  | cons x xs ih =>
    have ih := ih (fun y hy => h y (by simp [hy]))
    unfold Spec.search Spec.same
    by_cases e : x = o
    · simp [e, List.findIdx?_cons]
    · rw [if_neg e, h x (by simp) e]
      simp [ih, List.findIdx?_cons, e]

theorem occurrences_id {H : OHost} {o : Obj} {l : List Obj} (h : OObj.IdEq H l o) :
    Spec.occurrences H o l = .ok (l.count o) := by
  induction l with
  | nil => rfl
  | cons x xs ih =>
    have ih := ih (fun y hy => h y (by simp [hy]))
    unfold Spec.occurrences Spec.same
    by_cases e : x = o
    · simp [e, ih]
    · rw [if_neg e, h x (by simp) e]
      simp [ih, e]

theorem findFrom_all (l : List Obj) (o : Obj) :
    ArrayList.findFrom l 0 l.length o = l.findIdx? (· == o) := by
  unfold ArrayList.findFrom
  simp only [List.take_length, List.drop_zero]
  cases l.findIdx? (· == o) <;> simp

theorem remove_does (hc : Covered ext s.heap s.vec) {o : Obj} {H : OHost} (hi : OObj.IdEq H s.vec o) :
    Does (remove s o) s (Spec.ostep H s.vec (.remove o)) [] := by
  simp only [remove, findFrom_all, Spec.ostep, search_id hi]
  cases hf : s.vec.findIdx? (· == o) with
  | none => exact does_err _
  | some p =>
    rw [List.findIdx?_eq_some_iff_getElem] at hf
    obtain ⟨hp, h1, -⟩ := hf
    have h1 : s.vec[p] = o := by simpa using h1
    obtain ⟨h2, e2, a2⟩ := decref_ok (hc.live (h1 ▸ List.getElem_mem hp : o ∈ s.vec))
    refine ⟨h2, by simp [withHeap, e2, outOf, List.eraseIdx_eq_take_drop_succ], a2.congr fun x => ?_⟩
    have := count_take_drop s.vec p hp x
    have e3 : s.vec.getD p 0 = o := by simp [hp, h1]
    rw [e3] at this
    simp only [delta, Spec.carried, List.count_nil]
    omega

theorem count_does {o : Obj} {H : OHost} (hi : OObj.IdEq H s.vec o) :
    Does (count s o) s (Spec.ostep H s.vec (.count o)) [] := by
  simp only [count, Spec.ostep, occurrences_id hi]
  exact does_same rfl rfl

theorem contains_does {o : Obj} {H : OHost} (hi : OObj.IdEq H s.vec o) (hm : H.isInt o = true ∨ o ∉ s.vec) :
    Does (contains H s o) s (Spec.ostep H s.vec (.contains o)) [] := by
  simp only [contains, Spec.ostep, search_id hi, findFrom_all]
  refine does_same rfl ?_
  by_cases h : H.isInt o = true
  · rw [if_pos h]; rfl
  · rw [if_neg h]
    have hm : o ∉ s.vec := hm.resolve_left h
    have : s.vec.findIdx? (· == o) = none := by
      rw [List.findIdx?_eq_none_iff]
      intro x hx
      simp only [beq_eq_false_iff_ne, ne_eq]
      rintro rfl; exact hm hx
    rw [this]; rfl

theorem IdEq_sub {H : OHost} {l l' : List Obj} {o : Obj} (h : OObj.IdEq H l o) (hs : ∀ x ∈ l', x ∈ l) :
    OObj.IdEq H l' o := fun x hx => h x (hs x hx)

/-- The body of `index` once the bounds are known. -/
theorem index_core (l : List Obj) (o : Obj) (i j : Option Int) :
    (let n : Int := l.length
     let start := i.getD 0
     let stop := j.getD n
     let start := if start < 0 then start + n else start
     let stop := if stop < 0 then stop + n else stop
     let start := if start < 0 then 0 else start
     let stop := if stop > n then n else stop
     (if start > stop then Except.error Exc.valueError
     else
       match ArrayList.findFrom l start.toNat stop.toNat o with
       | none => .error .valueError
       | some k => .ok k) = (
     let lo := ((i.map (Spec.clampUp l.length)).getD 0).toNat
     let hi := ((j.map (Spec.clampUp l.length)).getD l.length).toNat
     match ((l.take hi).drop lo).findIdx? (· == o) with
     | none => .error Exc.valueError
     | some p => .ok (lo + p)) ∧ (¬ start > stop → 0 ≤ stop)) := by
  intro n start stop start' stop' start'' stop'' 
  generalize hlo : (i.map (Spec.clampUp l.length)).getD 0 = lo
  generalize hhi : (j.map (Spec.clampUp l.length)).getD (l.length : Int) = hi
  have e1 : lo = min start'' l.length := by
    subst hlo; cases i
    · simp only [Option.map_none, Option.getD_none, start'', start', start]; omega
    · simp only [Option.map_some, Option.getD_some, Spec.clampUp, Spec.fromFront, start'', start', start]; omega
  have e2 : hi = max 0 stop'' := by
    subst hhi; cases j
    · simp only [Option.map_none, Option.getD_none, stop'', stop', stop, n]; omega
    · simp only [Option.map_some, Option.getD_some, Spec.clampUp, Spec.fromFront, stop'', stop', stop, n]; omega
  have s0 : 0 ≤ start'' := by simp only [start'']; split <;> omega
  have s1 : stop'' ≤ l.length := by simp only [stop'', n]; split <;> omega
  refine ⟨?_, fun h => by omega⟩
  by_cases hgt : start'' > stop''
  · rw [if_pos hgt]
    have hnil : (l.take hi.toNat).drop lo.toNat = [] := by
      apply List.drop_eq_nil_of_le; simp; omega
    simp only [hnil]; rfl
  · rw [if_neg hgt]
    have a1 : start''.toNat = lo.toNat := by omega
    have a2 : stop''.toNat = hi.toNat := by omega
    rw [a1, a2]
    unfold ArrayList.findFrom
    dsimp only
    cases ((l.take hi.toNat).drop lo.toNat).findIdx? (· == o) <;> rfl

theorem index_does {o : Obj} {i j : Option Arg} {H : OHost} (hid : OObj.IdEq H s.vec o)
    (hi : ArrayList.BoundOk i) (hj : ArrayList.BoundOk j) :
    Does (index s o i j) s (Spec.ostep H s.vec (.index o i j)) [] := by
  have bound : ∀ {a : Option Arg}, ArrayList.BoundOk a →
      ∀ x, a = some x → x = .other ∨ ∃ v, Spec.word .overflowError x = .ok v := by
    rintro a h x rfl
    cases x with
    | other => exact .inl rfl
    | int v | index v => right; exact ⟨v, by simp [Spec.word, show Spec.InRange 64 v from h]⟩
  have key : ∀ i j : Option Int, Does
      (let n : Int := s.vec.length
       let start := i.getD 0
       let stop := j.getD n
       let start := if start < 0 then start + n else start
       let stop := if stop < 0 then stop + n else stop
       let start := if start < 0 then 0 else start
       let stop := if stop > n then n else stop
       if start > stop then .exc s .valueError
       else if stop < 0 then .ub .badIterator
       else
        match ArrayList.findFrom s.vec start.toNat stop.toNat o with
        | none => .exc s .valueError
        | some k => .ok s (.int k)) s
      (let lo := ((i.map (Spec.clampUp s.vec.length)).getD 0).toNat
       let hi := ((j.map (Spec.clampUp s.vec.length)).getD s.vec.length).toNat
       match Spec.search H o ((s.vec.take hi).drop lo) with
        | .error e => (s.vec, .error e)
        | .ok none => (s.vec, .error .valueError)
        | .ok (some p) => (s.vec, .ok (.int (lo + p : Nat)))) [] := by
    intro i j
    have hc := index_core s.vec o i j
    dsimp only at hc ⊢
    obtain ⟨hc1, hc2⟩ := hc
    rw [search_id (IdEq_sub hid (fun x hx => List.mem_of_mem_take (List.mem_of_mem_drop hx)))]
    generalize (if (if i.getD 0 < 0 then i.getD 0 + (s.vec.length : Int) else i.getD 0) < 0 then 0
      else (if i.getD 0 < 0 then i.getD 0 + (s.vec.length : Int) else i.getD 0)) = start at hc1 hc2 ⊢
    generalize (if (if j.getD (s.vec.length : Int) < 0 then j.getD (s.vec.length : Int) + (s.vec.length : Int)
      else j.getD (s.vec.length : Int)) > (s.vec.length : Int) then (s.vec.length : Int)
      else (if j.getD (s.vec.length : Int) < 0 then j.getD (s.vec.length : Int) + (s.vec.length : Int)
      else j.getD (s.vec.length : Int))) = stop at hc1 hc2 ⊢
    generalize ((i.map (Spec.clampUp s.vec.length)).getD 0).toNat = lo at hc1 ⊢
    generalize ((j.map (Spec.clampUp s.vec.length)).getD s.vec.length).toNat = hi at hc1 ⊢
    by_cases hgt : start > stop
    · rw [if_pos hgt] at hc1 ⊢
      cases hx : ((s.vec.take hi).drop lo).findIdx? (· == o) with
      | none => exact does_err _
      | some p => rw [hx] at hc1; simp at hc1
    · rw [if_neg hgt] at hc1 ⊢
      rw [if_neg (by have := hc2 hgt; omega)]
      cases hx : ((s.vec.take hi).drop lo).findIdx? (· == o) with
      | none =>
        rw [hx] at hc1
        cases hy : ArrayList.findFrom s.vec start.toNat stop.toNat o with
        | none => exact does_err _
        | some k => rw [hy] at hc1; simp at hc1
      | some p =>
        rw [hx] at hc1
        cases hy : ArrayList.findFrom s.vec start.toNat stop.toNat o with
        | none => rw [hy] at hc1; simp at hc1
        | some k =>
          rw [hy] at hc1
          simp only [Except.ok.injEq] at hc1
          subst hc1
          exact does_same rfl rfl
  simp only [index, Spec.ostep]
  rcases ArrayList.word_field i (bound hi) with ⟨h1, x, rfl, h2⟩ | ⟨rfl, h1⟩ | ⟨x, v1, rfl, h1, h2⟩
  · simp only [h1, h2]; exact does_err _
  · rcases ArrayList.word_field j (bound hj) with ⟨h3, y, rfl, h4⟩ | ⟨rfl, h3⟩ | ⟨y, v2, rfl, h3, h4⟩
    · simp only [h1, h3, h4]; exact does_err _
    · simp only [h1]; exact key none none
    · simp only [h1, h3, h4]; exact key none (some v2)
  · rcases ArrayList.word_field j (bound hj) with ⟨h3, y, rfl, h4⟩ | ⟨rfl, h3⟩ | ⟨y, v2, rfl, h3, h4⟩
    · simp only [h1, h2, h3, h4]; exact does_err _
    · simp only [h1, h2, h3]; exact key (some v1) none
    · simp only [h1, h2, h3, h4]; exact key (some v1) (some v2)

/-! ### subscripts -/

theorem getItem_does (hc : Covered ext s.heap s.vec) (i : Int) :
    Does (getItem s i) s (match Spec.position s.vec.length i with
      | none => (s.vec, .error .indexError)
      | some p => (s.vec, .ok (.obj (s.vec.getD p 0)))) [] := by
  unfold getItem
  rw [ArrayList.position_eq, show (s.vec.length : Int) + i = i + s.vec.length from Int.add_comm _ _]
  simp only
  generalize (if i < 0 then i + (s.vec.length : Int) else i) = j
  split
  · exact does_err _
  · have hj : j.toNat < s.vec.length := by omega
    rw [List.getElem?_eq_getElem hj]
    obtain ⟨h2, e2, a2⟩ := incref_ok (hc.live (List.getElem_mem hj))
    refine ⟨h2, by simp [withHeap, e2, outOf, hj], a2.congr fun x => ?_⟩
    simp [delta, Spec.carried, hj]

theorem positions_mem {n : Nat} {i j : Option Int} {k : Int} : ∀ p ∈ Spec.positions n i j k, p < n := by
  intro p hp
  unfold Spec.positions at hp
  split at hp
  · simp only [List.mem_filter, List.mem_range] at hp; exact hp.1
  · simp only [List.mem_reverse, List.mem_filter, List.mem_range] at hp; exact hp.1

theorem get_does (hc : Covered ext s.heap s.vec) (k : Key) (H : OHost)
    (hk : match k with | .idx a => a ≠ .other | .slice _ => (s.vec.length : Int) ≤ ssizeMax) :
    Does (subscript s k) s (Spec.ostep H s.vec (.get k)) [] := by
  cases k with
  | idx a =>
    have : subscript s (.idx a) = (match asSsizeIndex a with
      | (_, some e) => .exc s e
      | (i, none) => getItem s i) := by cases a <;> first | rfl | exact absurd rfl hk
    rw [this, ArrayList.asSsizeIndex_eq]
    simp only [Spec.ostep]
    cases Spec.word .indexError a with
    | error e => exact does_err _
    | ok i => exact getItem_does hc i
  | slice sl =>
    simp only [subscript, Spec.ostep]
    obtain ⟨h1, h2⟩ := sliceUnpack_fields sl
    rw [h1]
    cases hf : Spec.fields sl with
    | error e => exact does_err _
    | ok f =>
      obtain ⟨i, j, k⟩ := f
      simp only
      generalize ha : adjustIndices _ _ _ _ = adj
      obtain ⟨start, stop, cnt⟩ := adj
      obtain ⟨p1, p2, -⟩ := adjust_positions hk (h2 i j k hf) ha
      simp only
      rw [ArrayList.sliceLoop_eq s.vec 0]
      · simp only
        have e : ((List.range cnt.toNat).map fun t => s.vec.getD (start + ((0 + t : Nat) : Int) *
            (if clampSsize k < -ssizeMax then -ssizeMax else clampSsize k)).toNat 0) =
            Spec.pick s.vec (Spec.positions s.vec.length i j k) := by
          rw [p1, ArrayList.pick_map s.vec 0]
          · simp
          · intro t ht
            have := p2 t (by omega)
            omega
        rw [e]
        obtain ⟨h3, e3, a3⟩ := increfs_ok (h := s.heap) (xs := Spec.pick s.vec (Spec.positions s.vec.length i j k))
          (fun o ho => hc.live (by
            unfold Spec.pick at ho
            obtain ⟨p, -, hp⟩ := List.mem_filterMap.1 ho
            exact List.mem_of_getElem? hp))
        refine ⟨h3, by simp [withHeap, e3, outOf], a3.congr fun x => ?_⟩
        simp [delta, Spec.carried]
      · intro t ht
        have := p2 t (by omega)
        simpa using this

theorem del_does (hc : Covered ext s.heap s.vec) (k : Key) (H : OHost)
    (hk : match k with | .idx a => a ≠ .other | .slice sl => ∀ f, Spec.fields sl ≠ .ok f) :
    Does (del s k) s (Spec.ostep H s.vec (.del k)) [] := by
  cases k with
  | idx a =>
    have : del s (.idx a) = (match asSsizeIndex a with
      | (_, some e) => .exc s e
      | (i, none) => setItem s i none) := by cases a <;> first | rfl | exact absurd rfl hk
    rw [this, ArrayList.asSsizeIndex_eq]
    simp only [Spec.ostep]
    cases Spec.word .indexError a with
    | error e => exact does_err _
    | ok i =>
      simp only
      unfold setItem
      rw [ArrayList.position_eq, show (s.vec.length : Int) + i = i + s.vec.length from Int.add_comm _ _]
      simp only
      generalize (if i < 0 then i + (s.vec.length : Int) else i) = j
      split
      · exact does_err _
      · have hj : j.toNat < s.vec.length := by omega
        rw [List.getElem?_eq_getElem hj]
        obtain ⟨h2, e2, a2⟩ := decref_ok (hc.live (List.getElem_mem hj))
        refine ⟨h2, by simp [withHeap, e2, outOf, List.eraseIdx_eq_take_drop_succ], a2.congr fun x => ?_⟩
        have := count_take_drop s.vec j.toNat hj x
        have e3 : s.vec.getD j.toNat 0 = s.vec[j.toNat] := by simp [hj]
        rw [e3] at this
        simp only [delta, Spec.carried, List.count_nil]
        omega
  | slice sl =>
    simp only [del, Spec.ostep]
    obtain ⟨h1, h2⟩ := sliceUnpack_fields sl
    rw [h1]
    cases hf : Spec.fields sl with
    | error e => exact does_err _
    | ok f => exact absurd hf (hk f)

theorem setItem_does (hc : Covered ext s.heap s.vec) {a : Arg} {o : Obj} (hk : a ≠ .other)
    (ho : s.heap.imm o = true ∨ 0 < ext o) (H : OHost) :
    Does (setIdx s a o) s (Spec.ostep H s.vec (.setItem a o)) (leaked s.vec (.setItem a o)) := by
  have : setIdx s a o = (match asSsizeIndex a with
    | (_, some e) => .exc s e
    | (i, none) => setItem s i (some o)) := by cases a <;> first | rfl | exact absurd rfl hk
  rw [this, ArrayList.asSsizeIndex_eq]
  simp only [Spec.ostep, leaked]
  cases Spec.word .indexError a with
  | error e => exact does_err _
  | ok i =>
    simp only
    unfold setItem
    have hpe := ArrayList.position_eq s.vec.length i
    rw [show (s.vec.length : Int) + i = i + s.vec.length from Int.add_comm _ _]
    simp only at hpe ⊢
    rw [hpe]
    generalize (if i < 0 then i + (s.vec.length : Int) else i) = j
    split
    · exact does_err _
    · have hj : j.toNat < s.vec.length := by omega
      rw [List.getElem?_eq_getElem hj]
      obtain ⟨h2, e2, a2⟩ := incref_ok (hc.live_ext ho)
      refine ⟨h2, by simp [withHeap, e2, outOf, List.set_eq_take_append_cons_drop, hj], a2.congr fun x => ?_⟩
      have h3 := count_take_drop s.vec j.toNat hj x
      have e3 : s.vec.getD j.toNat 0 = s.vec[j.toNat] := by simp [hj]
      rw [e3] at h3
      have h4 := count_cons_int o x (s.vec.drop (j.toNat + 1))
      simp only [List.count_append] at h3
      simp only [delta, Spec.carried, List.count_nil, Option.bind_some, List.getElem?_eq_getElem hj,
        Option.toList_some, List.count_append]
      omega

/-! ### slice assignment -/

theorem finishSlots_some (l : List Obj) (h : Heap) : finishSlots (l.map some) h none = .ok ⟨l, h⟩ .none := by
  have : (l.map some).mapM id = some l := by
    induction l with
    | nil => rfl
    | cons x xs ih => simp [List.map_cons, ih]
  unfold finishSlots
  rw [this]

theorem elems_sized {src : OSrc} {xs : List Obj} (h : sized src = some xs) (cur : List Obj) :
    src.elems cur = xs ∧ src.size cur = xs.length ∧ src.isSequence = true ∧ src ≠ .self := by
  cases src <;> simp [sized] at h <;> subst h <;> simp [OSrc.elems, OSrc.size, OSrc.isSequence]

theorem srcSlots_sized {src : OSrc} {xs : List Obj} (h : sized src = some xs) (v : Slots) :
    srcSlots src v = xs.map some := by
  cases src <;> simp [sized] at h <;> subst h <;> rfl

theorem swapRefs_ok {src : OSrc} {xs : List Obj} (hs : sized src = some xs) (start n i : Nat) (A B : Slots)
    (ds : List Obj) (h : Heap) (hA : A.length = start + i) (hd : ds.length = n) (hx : i + n ≤ xs.length)
    (hcov : ∀ o, h.imm o = false → ext o + ds.count o ≤ h.rc o)
    (hy : ∀ y ∈ xs, h.imm y = true ∨ 0 < ext y) :
    ∃ h', swapRefs src start n i (A ++ ds.map some ++ B) h = .ok (A ++ List.replicate n none ++ B, h') ∧
      Adj h h' (fun x => (((xs.drop i).take n).count x : Nat) - (ds.count x : Nat)) := by
  induction n generalizing i A ds h with
  | zero =>
    obtain rfl : ds = [] := List.length_eq_zero_iff.1 hd
    exact ⟨h, by simp [swapRefs], (Adj.refl h).congr (by simp)⟩
  | succ n ih =>
    cases ds with
    | nil => simp at hd
    | cons d ds =>
      have hi : i < xs.length := by omega
      obtain ⟨h1, e1, a1⟩ := decref_ok (h := h) (o := d) (by
        by_cases him : h.imm d = true
        · exact .inl him
        · right; have := hcov d (by simpa using him); simp at this; omega)
      have hlive : h1.imm xs[i] = true ∨ 0 < h1.rc xs[i] := by
        rw [a1.1]
        by_cases him : h.imm xs[i] = true
        · exact .inl him
        · right
          have him' : h.imm xs[i] = false := by simpa using him
          have h3 := hcov _ him'
          have h4 := a1.2 _ him'
          have h5 := (hy _ (List.getElem_mem hi)).resolve_left him
          have h6 := count_cons_int d xs[i] ds
          dsimp only at h4
          omega
      obtain ⟨h2, e2, a2⟩ := incref_ok hlive
      have a12 := a1.trans a2
      have e3 : (A ++ (d :: ds).map some ++ B).set (start + i) none = (A ++ [none]) ++ ds.map some ++ B := by
        rw [← hA]; simp
      obtain ⟨h3, e4, a3⟩ := ih (i + 1) (A ++ [none]) ds h2 (by simp; omega) (by simpa using hd) (by omega)
        (by
          intro o ho
          rw [a12.1] at ho
          have h5 := hcov o ho
          have h6 := a12.2 o ho
          have h7 := count_cons_int d o ds
          dsimp only at h6
          omega)
        (by intro y hyy; rw [a12.1]; exact hy y hyy)
      refine ⟨h3, ?_, (a12.trans a3).congr fun x => ?_⟩
      · rw [swapRefs]
        have g1 : (A ++ (d :: ds).map some ++ B)[start + i]? = some (some d) := by
          rw [← hA]; simp
        rw [g1]
        simp only [e1]
        have g2 : (srcSlots src ((A ++ (d :: ds).map some ++ B).set (start + i) none))[i]? = some (some xs[i]) := by
          rw [srcSlots_sized hs]; simp [hi]
        rw [g2]
        simp only [e2]
        rw [e3, e4]
        simp [List.replicate_succ]
      · have h7 := count_cons_int d x ds
        have h8 := count_cons_int xs[i] x ((xs.drop (i + 1)).take n)
        have h9 : (xs.drop i).take (n + 1) = xs[i] :: (xs.drop (i + 1)).take n := by
          rw [List.drop_eq_getElem_cons hi]; rfl
        rw [h9]
        omega

theorem genericCopy_ok {src : OSrc} {xs : List Obj} (hs : sized src = some xs) (start n i : Nat) (A B : Slots)
    (ds : List Obj) (h : Heap) (hA : A.length = start + i) (hd : ds.length = n) (hx : i + n ≤ xs.length)
    (hcov : ∀ o, h.imm o = false → ds.count o ≤ h.rc o) :
    ∃ h', genericCopy src start n i (A ++ ds.map some ++ B) h =
        .ok (A ++ ((xs.drop i).take n).map some ++ B, h') ∧
      Adj h h' (fun x => (((xs.drop i).take n).count x : Nat) - (ds.count x : Nat)) := by
  induction n generalizing i A ds h with
  | zero =>
    obtain rfl : ds = [] := List.length_eq_zero_iff.1 hd
    exact ⟨h, by simp [genericCopy], (Adj.refl h).congr (by simp)⟩
  | succ n ih =>
    cases ds with
    | nil => simp at hd
    | cons d ds =>
      have hi : i < xs.length := by omega
      have a1 := gain_adj h xs[i]
      obtain ⟨h2, e2, a2⟩ := decref_ok (h := h.gain xs[i]) (o := d) (by
        rw [a1.1]
        by_cases him : h.imm d = true
        · exact .inl him
        · right
          have him : h.imm d = false := by simpa using him
          have h3 := hcov d him
          have h4 := a1.2 d him
          have h5 := count_cons_int d d ds
          have h6 : List.count d [d] = 1 := by simp
          dsimp only at h4
          omega)
      have a12 := a1.trans a2
      have e3 : (A ++ (d :: ds).map some ++ B).set (start + i) (some xs[i]) =
          (A ++ [some xs[i]]) ++ ds.map some ++ B := by
        rw [← hA]; simp
      have h9 : (xs.drop i).take (n + 1) = xs[i] :: (xs.drop (i + 1)).take n := by
        rw [List.drop_eq_getElem_cons hi]; rfl
      obtain ⟨h3, e4, a3⟩ := ih (i + 1) (A ++ [some xs[i]]) ds h2 (by simp; omega) (by simpa using hd) (by omega)
        (by
          intro o ho
          rw [a12.1] at ho
          have h5 := hcov o ho
          have h6 := a12.2 o ho
          have h7 := count_cons_int d o ds
          dsimp only at h6
          omega)
      refine ⟨h3, ?_, (a12.trans a3).congr fun x => ?_⟩
      · rw [genericCopy]
        have g1 : (A ++ (d :: ds).map some ++ B)[start + i]? = some (some d) := by
          rw [← hA]; simp
        rw [(elems_sized hs []).1, List.getElem?_eq_getElem hi, g1]
        simp only [e2]
        rw [e3, e4, h9]
        simp
      · have h7 := count_cons_int d x ds
        have h8 := count_cons_int xs[i] x ((xs.drop (i + 1)).take n)
        rw [h9]
        omega

theorem copyIn_ok {src : OSrc} {xs : List Obj} (hs : sized src = some xs) (start n : Nat) (A B : List Obj)
    (ds : List Obj) (h : Heap) (hA : A.length = start) (hd : ds.length = n) (hx : n ≤ xs.length)
    (hcov : ∀ o, h.imm o = false → ext o + ds.count o ≤ h.rc o)
    (hy : ∀ y ∈ xs, h.imm y = true ∨ 0 < ext y) :
    ∃ h', copyIn src start n ((A ++ ds ++ B).map some) h = .ok ((A ++ xs.take n ++ B).map some, h') ∧
      Adj h h' (fun x => ((xs.take n).count x : Nat) - (ds.count x : Nat)) := by
  unfold copyIn
  by_cases hf : fast src = true
  · rw [if_pos hf]
    obtain ⟨h1, e1, a1⟩ := swapRefs_ok hs start n 0 (A.map some) (B.map some) ds h (by simpa using hA) hd (by omega)
      hcov hy
    refine ⟨h1, ?_, by simpa using a1⟩
    unfold fastCopy
    rw [List.map_append, List.map_append, e1]
    simp only [srcSlots_sized hs]
    congr 2
    have t1 : (A.map some ++ List.replicate n none ++ B.map some).take start = A.map some := by
      rw [List.append_assoc]; exact List.take_left' (by simpa using hA)
    have t2 : (A.map some ++ List.replicate n none ++ B.map some).drop (start + n) = B.map some :=
      List.drop_left' (by simp; omega)
    rw [t1, t2]
    simp
  · rw [if_neg hf]
    obtain ⟨h1, e1, a1⟩ := genericCopy_ok hs start n 0 (A.map some) (B.map some) ds h (by simpa using hA) hd
      (by omega) (fun o ho => by have := hcov o ho; omega)
    refine ⟨h1, ?_, by simpa using a1⟩
    rw [List.map_append, List.map_append, e1]
    simp

theorem dropRefs_ok (p n : Nat) (A B : Slots) (ds : List Obj) (h : Heap) (hA : A.length = p) (hd : ds.length = n)
    (hcov : ∀ o, h.imm o = false → ds.count o ≤ h.rc o) :
    ∃ h', dropRefs p n (A ++ ds.map some ++ B) h = .ok (A ++ List.replicate n none ++ B, h') ∧
      Adj h h' (fun x => -(ds.count x : Nat)) := by
  induction n generalizing p A ds h with
  | zero =>
    obtain rfl : ds = [] := List.length_eq_zero_iff.1 hd
    exact ⟨h, by simp [dropRefs], (Adj.refl h).congr (by simp)⟩
  | succ n ih =>
    cases ds with
    | nil => simp at hd
    | cons d ds =>
      obtain ⟨h1, e1, a1⟩ := decref_ok (h := h) (o := d) (by
        by_cases him : h.imm d = true
        · exact .inl him
        · right; have := hcov d (by simpa using him); simp at this; omega)
      have e3 : (A ++ (d :: ds).map some ++ B).set p none = (A ++ [none]) ++ ds.map some ++ B := by
        rw [← hA]; simp
      obtain ⟨h3, e4, a3⟩ := ih (p + 1) (A ++ [none]) ds h1 (by simp; omega) (by simpa using hd)
        (by
          intro o ho
          rw [a1.1] at ho
          have h5 := hcov o ho
          have h6 := a1.2 o ho
          have h7 := count_cons_int d o ds
          dsimp only at h6
          omega)
      refine ⟨h3, ?_, (a1.trans a3).congr fun x => ?_⟩
      · rw [dropRefs]
        have g1 : (A ++ (d :: ds).map some ++ B)[p]? = some (some d) := by
          rw [← hA]; simp
        rw [g1]
        simp only [e1]
        rw [e3, e4]
        simp [List.replicate_succ]
      · have h7 := count_cons_int d x ds
        omega

theorem insertNew_ok {src : OSrc} {xs : List Obj} (hs : sized src = some xs) (start n i : Nat) (A B : List Obj)
    (h : Heap) (hA : A.length = start + i) (hx : i + n ≤ xs.length) :
    ∃ h', insertNew src start n i ((A ++ B).map some) h =
        .ok ((A ++ (xs.drop i).take n ++ B).map some, h') ∧
      Adj h h' (fun x => (((xs.drop i).take n).count x : Nat)) := by
  induction n generalizing i A h with
  | zero => exact ⟨h, by simp [insertNew], (Adj.refl h).congr (by simp)⟩
  | succ n ih =>
    have hi : i < xs.length := by omega
    have h9 : (xs.drop i).take (n + 1) = xs[i] :: (xs.drop (i + 1)).take n := by
      rw [List.drop_eq_getElem_cons hi]; rfl
    obtain ⟨h3, e4, a3⟩ := ih (i + 1) (A ++ [xs[i]]) (h.gain xs[i]) (by simp; omega) (by omega)
    refine ⟨h3, ?_, ((gain_adj h xs[i]).trans a3).congr fun x => ?_⟩
    · rw [insertNew, (elems_sized hs []).1, List.getElem?_eq_getElem hi]
      simp only
      rw [if_pos (by simp; omega)]
      have t : ((A ++ B).map some).take (start + i) ++ some xs[i] :: ((A ++ B).map some).drop (start + i) =
          ((A ++ [xs[i]]) ++ B).map some := by
        rw [List.map_append, List.take_left' (by simpa using hA), List.drop_left' (by simpa using hA)]
        simp
      rw [t, e4, h9]
      simp
    · rw [h9]
      exact (count_cons_int _ _ _).symm

theorem replace_ok {src : OSrc} {xs : List Obj} (hs : sized src = some xs) (A D B : List Obj) (start stop n : Int)
    (hv : s.vec = A ++ D ++ B) (hst : start = A.length) (hn : n = D.length)
    (hstop : D ≠ [] → stop = A.length + D.length) (hg : fast src = true → xs.length ≤ D.length)
    (hc : Covered ext s.heap s.vec) (hy : ∀ y ∈ xs, s.heap.imm y = true ∨ 0 < ext y) :
    ∃ h', replace src start stop n xs.length s = .ok ⟨A ++ xs ++ B, h'⟩ .none ∧
      Adj s.heap h' (fun x => (xs.count x : Nat) - (D.count x : Nat)) := by
  subst hst hn
  have hcD : ∀ o, s.heap.imm o = false → ext o + D.count o ≤ s.heap.rc o := by
    intro o ho
    have := hc o ho
    rw [hv] at this
    simp only [List.count_append] at this
    omega
  unfold replace
  simp only [hv, Int.toNat_natCast]
  split
  · next h =>
    have h : xs.length = D.length := by omega
    obtain ⟨h1, e1, a1⟩ := copyIn_ok hs A.length D.length A B D s.heap rfl rfl (by omega) hcD hy
    rw [e1]
    simp only [finishSlots_some]
    rw [List.take_of_length_le (by omega)] at a1 ⊢
    exact ⟨h1, rfl, a1⟩
  · split
    · next h =>
      have hD : D ≠ [] := by rintro rfl; simp at h; omega
      obtain rfl := hstop hD
      have hlt : xs.length < D.length := by omega
      have hc2 : ∀ o, s.heap.imm o = false →
          (ext o + (D.drop xs.length).count o) + (D.take xs.length).count o ≤ s.heap.rc o := by
        intro o ho
        have h1 := hcD o ho
        have h2 : D.count o = (D.take xs.length).count o + (D.drop xs.length).count o := by
          rw [← List.count_append, List.take_append_drop]
        omega
      obtain ⟨h1, e1, a1⟩ := copyIn_ok (ext := fun o => ext o + (D.drop xs.length).count o) hs A.length xs.length A
        (D.drop xs.length ++ B) (D.take xs.length) s.heap rfl (by simp; omega) (by omega) hc2
        (fun y hyy => by rcases hy y hyy with h2 | h2; exact .inl h2; right; omega)
      have e0 : A ++ D ++ B = A ++ D.take xs.length ++ (D.drop xs.length ++ B) := by
        simp only [List.append_assoc]
        congr 1
        rw [← List.append_assoc, List.take_append_drop]
      rw [e0, e1]
      simp only
      rw [if_neg (by omega)]
      have e2 : (A ++ xs.take xs.length ++ (D.drop xs.length ++ B)).map some =
          (A ++ xs).map some ++ (D.drop xs.length).map some ++ B.map some := by simp
      rw [e2]
      obtain ⟨h2, e3, a2⟩ := dropRefs_ok ((A.length : Int) + xs.length).toNat
        ((D.length : Int) - xs.length).toNat ((A ++ xs).map some) (B.map some) (D.drop xs.length) h1
        (by simp; omega) (by simp) (by
          intro o ho
          rw [a1.1] at ho
          have h3 := hc2 o ho
          have h4 := a1.2 o ho
          dsimp only at h4
          omega)
      rw [e3]
      simp only
      rw [if_pos (by simp; omega), if_neg (by omega)]
      have t1 : ((A ++ xs).map some ++ List.replicate ((D.length : Int) - xs.length).toNat none ++
          B.map some).take ((A.length : Int) + xs.length).toNat = (A ++ xs).map some := by
        rw [List.append_assoc]; exact List.take_left' (by simp; omega)
      have t2 : ((A ++ xs).map some ++ List.replicate ((D.length : Int) - xs.length).toNat none ++
          B.map some).drop ((A.length : Int) + D.length).toNat = B.map some :=
        List.drop_left' (by simp; omega)
      rw [t1, t2, ← List.map_append, finishSlots_some]
      refine ⟨h2, rfl, (a1.trans a2).congr fun x => ?_⟩
      have h4 : D.count x = (D.take xs.length).count x + (D.drop xs.length).count x := by
        rw [← List.count_append, List.take_append_drop]
      simp only [List.take_length]
      omega
    · next hne hlt =>
      have hlt : D.length < xs.length := by omega
      obtain ⟨h1, e1, a1⟩ := copyIn_ok hs A.length D.length A B D s.heap rfl rfl (by omega) hcD hy
      rw [e1]
      simp only
      by_cases hf : fast src = true
      · have := hg hf; omega
      · rw [if_neg hf]
        obtain ⟨h2, e2, a2⟩ := insertNew_ok hs A.length ((xs.length : Int) - D.length).toNat D.length
          (A ++ xs.take D.length) B h1 (by simp; omega) (by omega)
        rw [e2]
        simp only [finishSlots_some]
        have e3 : (xs.drop D.length).take ((xs.length : Int) - D.length).toNat = xs.drop D.length :=
          List.take_of_length_le (by simp)
        rw [e3] at a2 ⊢
        refine ⟨h2, ?_, (a1.trans a2).congr fun x => ?_⟩
        · congr 2
          rw [List.append_assoc A, List.take_append_drop]
        · have : xs.count x = (xs.take D.length).count x + (xs.drop D.length).count x := by
            rw [← List.count_append, List.take_append_drop]
          omega

/-- A growing slice assignment from a list: the items that replace elements are counted, the others are not. -/
theorem replace_grow {src : OSrc} {xs : List Obj} (hs : sized src = some xs) (A D B : List Obj) (start stop n : Int)
    (hv : s.vec = A ++ D ++ B) (hst : start = A.length) (hn : n = D.length)
    (hg : D.length < xs.length) (hf : fast src = true)
    (hc : Covered ext s.heap s.vec) (hy : ∀ y ∈ xs, s.heap.imm y = true ∨ 0 < ext y) :
    ∃ h', replace src start stop n xs.length s = .ok ⟨A ++ xs ++ B, h'⟩ .none ∧
      Adj s.heap h' (fun x => ((xs.take D.length).count x : Nat) - (D.count x : Nat)) := by
  subst hst hn
  have hcD : ∀ o, s.heap.imm o = false → ext o + D.count o ≤ s.heap.rc o := by
    intro o ho
    have := hc o ho
    rw [hv] at this
    simp only [List.count_append] at this
    omega
  unfold replace
  simp only [hv, Int.toNat_natCast]
  rw [if_neg (by omega), if_neg (by omega)]
  obtain ⟨h1, e1, a1⟩ := copyIn_ok hs A.length D.length A B D s.heap rfl rfl (by omega) hcD hy
  rw [e1]
  simp only [hf, if_true]
  rw [if_neg (elems_sized hs []).2.2.2, if_pos (by simp; omega), srcSlots_sized hs]
  refine ⟨h1, ?_, a1⟩
  have e2 : ((A.length : Int) + D.length).toNat = A.length + D.length := by omega
  have e3 : (A ++ xs.take D.length).length = A.length + D.length := by simp; omega
  rw [e2, ← List.map_take, ← List.map_drop, ← List.map_take, ← List.map_drop, List.take_left' e3,
    List.drop_left' e3, List.take_of_length_le (Nat.le_refl _), ← List.map_append, ← List.map_append,
    finishSlots_some]
  congr 2
  simp only [List.append_assoc]
  rw [← List.append_assoc (xs.take _), List.take_append_drop]

/-- Bounds of a slice with step 1. -/
theorem slice_one {l : List Obj} (hn : (l.length : Int) ≤ ssizeMax) {sl : SliceArg} {i j : Option Int}
    (hf : Spec.fields sl = .ok (i, j, 1)) :
    ∃ start stop cnt : Int, (∀ k1 k2 k3, sliceUnpack sl = .ok (k1, k2, k3) →
        k3 = 1 ∧ adjustIndices l.length k1 k2 k3 = (start, stop, cnt)) ∧
      (∃ k, sliceUnpack sl = .ok k) ∧
      start = (i.map (Spec.clampUp l.length)).getD 0 ∧ stop = (j.map (Spec.clampUp l.length)).getD l.length ∧
      0 ≤ start ∧ start ≤ l.length ∧ 0 ≤ stop ∧ stop ≤ l.length ∧
      cnt = ((stop.toNat - start.toNat : Nat) : Int) ∧
      (Spec.positions l.length i j 1).length = stop.toNat - start.toNat := by
  obtain ⟨h1, h2⟩ := sliceUnpack_fields sl
  rw [h1, hf]
  simp only
  generalize ha : adjustIndices l.length ((i.map clampSsize).getD (if (1 : Int) < 0 then ssizeMax else 0))
      ((j.map clampSsize).getD (if (1 : Int) < 0 then -(2 ^ 63) else ssizeMax))
      (if clampSsize 1 < -ssizeMax then -ssizeMax else clampSsize 1) = adj
  obtain ⟨start, stop, cnt⟩ := adj
  obtain ⟨p1, p2, p3⟩ := adjust_positions hn (h2 i j 1 hf) ha
  obtain ⟨q1, q2⟩ := p3 (by decide)
  have hc1 : (if clampSsize 1 < -ssizeMax then -ssizeMax else clampSsize 1) = 1 := by decide
  have b1 : 0 ≤ start ∧ start ≤ l.length := by
    rw [q1]; cases i
    · simp
    · simp only [Option.map_some, Option.getD_some, Spec.clampUp]; omega
  have b2 : 0 ≤ stop ∧ stop ≤ l.length := by
    rw [q2]; cases j
    · simp
    · simp only [Option.map_some, Option.getD_some, Spec.clampUp]; omega
  have hcn : cnt = ((stop.toNat - start.toNat : Nat) : Int) := by
    rw [hc1] at ha
    have h1 := congrArg (fun x => x.1) ha
    have h2 := congrArg (fun x => x.2.1) ha
    have h3 := congrArg (fun x => x.2.2) ha
    simp only [adjustIndices, show ¬ ((1:Int) < 0) by decide, if_false] at h1 h2 h3
    rw [h1, h2, Int.ediv_one] at h3
    omega
  refine ⟨start, stop, cnt, ?_, ⟨_, rfl⟩, q1, q2, b1.1, b1.2, b2.1, b2.2, hcn, ?_⟩
  · intro k1 k2 k3 hk
    simp only [Except.ok.injEq, Prod.mk.injEq] at hk
    obtain ⟨rfl, rfl, rfl⟩ := hk
    exact ⟨hc1, ha⟩
  · rw [p1]; simp; omega

theorem setSlice_does (hc : Covered ext s.heap s.vec) {sl : SliceArg} {src : OSrc} (H : OHost)
    (hok : OpOk H s.heap.imm s.vec (.setSlice sl src))
    (hh : ∀ o ∈ Spec.mentioned (.setSlice sl src), s.heap.imm o = true ∨ 0 < ext o) :
    Does (setSlice s sl src) s (Spec.ostep H s.vec (.setSlice sl src)) [] := by
  obtain ⟨hn, hok⟩ := hok
  obtain ⟨u1, u2⟩ := sliceUnpack_fields sl
  cases hf : Spec.fields sl with
  | error e =>
    simp only [setSlice, Spec.ostep, u1, hf]
    exact does_err _
  | ok f =>
    obtain ⟨i, j, k⟩ := f
    rcases hok with rfl | ⟨hsz, hk, hgr⟩
    · simp only [setSlice, Spec.ostep, u1, hf]
      simp only [OSrc.isSequence, Bool.not_false, if_true, Spec.oitems]
      exact does_err _
    · obtain rfl := hk i j k hf
      obtain ⟨xs, hs⟩ := Option.isSome_iff_exists.1 hsz
      obtain ⟨start, stop, cnt, hadj, ⟨⟨k1, k2, k3⟩, hu⟩, q1, q2, b1, b2, b3, b4, hcn, hpos⟩ := slice_one hn hf
      obtain ⟨rfl, hadj⟩ := hadj _ _ _ hu
      obtain ⟨-, z2, z3, z4⟩ := elems_sized hs s.vec
      have hit : Spec.oitems s.vec src = .ok (xs, none) := by
        cases src <;> simp [sized] at hs <;> subst hs <;> rfl
      have hme : Spec.mentioned (.setSlice sl src) = xs := by
        cases src <;> simp [sized] at hs <;> subst hs <;> rfl
      simp only [setSlice, Spec.ostep, hu, hf, hadj, z2, z3, hit, Bool.not_true, Bool.false_eq_true, if_false,
        ne_eq, not_true_eq_false, if_true]
      have hA : s.vec = s.vec.take start.toNat ++ (s.vec.drop start.toNat).take (stop.toNat - start.toNat) ++
          s.vec.drop (max start.toNat stop.toNat) := by
        have e : max start.toNat stop.toNat = start.toNat + (stop.toNat - start.toNat) := by omega
        rw [e, ← List.drop_drop, List.append_assoc, List.take_append_drop, List.take_append_drop]
      have hDl : ((s.vec.drop start.toNat).take (stop.toNat - start.toNat)).length = stop.toNat - start.toNat := by
        simp; omega
      obtain ⟨h1, e1, a1⟩ := replace_ok hs (s.vec.take start.toNat)
        ((s.vec.drop start.toNat).take (stop.toNat - start.toNat)) (s.vec.drop (max start.toNat stop.toNat))
        start stop cnt hA (by simp; omega) (by rw [hDl]; exact hcn)
        (by
          intro hne
          have : 0 < stop.toNat - start.toNat := by
            rw [← hDl]; exact List.length_pos_iff.2 hne
          rw [hDl]; simp; omega)
        (by
          intro hfast
          rw [hDl, ← hpos]
          apply Nat.le_of_not_lt
          intro hlt
          apply hgr
          unfold growsUncounted
          rw [hf]
          cases src <;> simp [fast] at hfast <;> simp [sized] at hs <;> subst hs <;> exact hlt)
        hc (by rw [← hme]; exact hh)
      rw [e1]
      refine ⟨h1, ?_, a1.congr fun x => ?_⟩
      · simp only [outOf, Spec.spliceAt, ← q1, ← q2]
      · have h2 := congrArg (fun z => (z.count x : Int)) hA
        simp only [List.count_append] at h2
        simp only [delta, Spec.carried, Spec.spliceAt, ← q1, ← q2, List.count_nil, List.count_append]
        omega

/-! ### arithmetic -/

theorem does_newref {o : OOut} {h' : Heap} {v : OVal} {xs : List Obj} (hv : Spec.carried (.ok v) = xs)
    (ho : o = .ok ⟨s.vec, h'⟩ v) (ha : Adj s.heap h' (fun x => (xs.count x : Nat))) : Does o s (s.vec, .ok v) [] := by
  refine ⟨h', ho, ha.congr fun x => ?_⟩
  simp [delta, hv]

theorem copy_does (hc : Covered ext s.heap s.vec) (H : OHost) :
    Does (copy s) s (Spec.ostep H s.vec .copy) [] := by
  obtain ⟨h1, e1, a1⟩ := inc_vec hc
  exact does_newref rfl (by simp [copy, withHeap, e1]) a1

theorem toList_does (hc : Covered ext s.heap s.vec) (H : OHost) :
    Does (toList s) s (Spec.ostep H s.vec .toList) [] := by
  obtain ⟨h1, e1, a1⟩ := inc_vec hc
  exact does_newref rfl (by simp [toList, withHeap, e1]) a1

theorem clear_does (hc : Covered ext s.heap s.vec) (H : OHost) :
    Does (clear s) s (Spec.ostep H s.vec .clear) [] := by
  obtain ⟨h1, e1, a1⟩ := decrefs_ok (h := s.heap) (xs := s.vec) (fun o ho => by have := hc o ho; omega)
  refine ⟨h1, by simp [clear, withHeap, e1, Spec.ostep, outOf], a1.congr fun x => ?_⟩
  simp [delta, Spec.ostep, Spec.carried]

theorem add_does (hc : Covered ext s.heap s.vec) {src : OSrc} (hs : src ≠ .self) (hs2 : ∀ v, src ≠ .same v)
    (hh : ∀ o ∈ Spec.mentioned (.add src), s.heap.imm o = true ∨ 0 < ext o) (H : OHost) :
    Does (add s src) s (Spec.ostep H s.vec (.add src)) [] := by
  obtain ⟨h1, e1, a1⟩ := inc_vec hc
  have err : ∀ e, Does (withHeap (s.heap.increfs s.vec) fun h => withHeap (h.decrefs s.vec) fun h =>
      .exc ⟨s.vec, h⟩ e) s (s.vec, .error e) [] := by
    intro e
    obtain ⟨h2, e2, a2⟩ := decrefs_ok (h := h1) (xs := s.vec) (fun o ho => by
      rw [a1.1] at ho
      have h4 := a1.2 o ho
      dsimp only at h4
      omega)
    refine ⟨h2, by simp [withHeap, e1, e2, outOf], (a1.trans a2).congr fun x => ?_⟩
    simp [delta, Spec.carried]; omega
  cases src with
  | self => exact absurd rfl hs
  | same v => exact absurd rfl (hs2 v)
  | tuple _ | seq _ | seqNoLen _ | iter _ _ | notIterable => exact err _
  | list xs =>
    obtain ⟨h2, e2, a2⟩ := increfs_ok (h := h1) (xs := s.vec ++ xs) (fun o ho => by
      have hl : s.heap.imm o = true ∨ 0 < s.heap.rc o := by
        rcases List.mem_append.1 ho with h3 | h3
        · exact hc.live h3
        · exact hc.live_ext (hh o h3)
      rw [a1.1]
      by_cases him : s.heap.imm o = true
      · exact .inl him
      · right
        have h4 := a1.2 o (by simpa using him)
        have h5 := hl.resolve_left him
        dsimp only at h4
        omega)
    have a12 := a1.trans a2
    obtain ⟨h3, e3, a3⟩ := decrefs_ok (h := h2) (xs := s.vec) (fun o ho => by
      rw [a12.1] at ho
      have h4 := a12.2 o ho
      dsimp only at h4
      omega)
    refine ⟨h3, by simp [add, withHeap, e1, e2, e3, Spec.ostep, outOf], (a12.trans a3).congr fun x => ?_⟩
    simp [delta, Spec.ostep, Spec.carried, List.count_append]
    omega

theorem mulLoop_ok (l : List Obj) (k : Nat) (acc : List Obj) (h : Heap)
    (hl : ∀ o ∈ l, h.imm o = true ∨ 0 < h.rc o) :
    ∃ h', mulLoop l k acc h = .ok (acc ++ (List.replicate k l).flatten, h') ∧
      Adj h h' (fun x => (((List.replicate k l).flatten).count x : Nat)) := by
  induction k generalizing acc h with
  | zero => exact ⟨h, by simp [mulLoop], (Adj.refl h).congr (by simp)⟩
  | succ k ih =>
    obtain ⟨h1, e1, a1⟩ := increfs_ok hl
    obtain ⟨h2, e2, a2⟩ := ih (acc ++ l) h1 (fun o ho => by
      rw [a1.1]
      by_cases him : h.imm o = true
      · exact .inl him
      · right
        have h4 := a1.2 o (by simpa using him)
        have h5 := (hl o ho).resolve_left him
        dsimp only at h4
        omega)
    refine ⟨h2, ?_, (a1.trans a2).congr fun x => ?_⟩
    · rw [mulLoop, e1]
      simp only [e2, List.replicate_succ, List.flatten_cons, List.append_assoc]
    · rw [List.replicate_succ, List.flatten_cons, List.count_append]; omega

theorem mul_does (hc : Covered ext s.heap s.vec) (n : Int) :
    Does (mul s n) s (s.vec, .ok (.newList (Spec.ocopies s.vec n))) [] := by
  unfold mul Spec.ocopies
  by_cases h0 : n ≤ 0
  · have e : n.toNat = 0 := by omega
    have e2 : (if n < 0 then 0 else n) = 0 := by split <;> omega
    simp only [e2, e, if_true, List.replicate_zero, List.flatten_nil]
    exact does_same rfl rfl
  · have e2 : (if n < 0 then 0 else n) = n := by split <;> omega
    simp only [e2]
    rw [if_neg (by omega)]
    obtain ⟨h1, e1, a1⟩ := mulLoop_ok s.vec n.toNat [] s.heap (fun o ho => hc.live ho)
    rw [e1]
    exact does_newref rfl (by simp) a1

theorem rmul_does (hc : Covered ext s.heap s.vec) (a : Arg) (H : OHost) :
    Does (rmul s a) s (Spec.ostep H s.vec (.rmul a)) [] := by
  cases a with
  | other => exact does_err _
  | int v | index v =>
    simp only [rmul, asLong, Spec.ostep]
    by_cases h : FitsS 64 v
    · simp only [h, if_true, show Spec.InRange 64 v from h]; exact mul_does hc v
    · have h' : ¬ Spec.InRange 64 v := h
      simp only [h, h', if_false]; exact does_err _

theorem imulOuter_nil (fuel k : Nat) (hf : 0 < fuel) (h : Heap) : imulOuter fuel k [] h = some (.ok ([], h)) := by
  obtain ⟨f, rfl⟩ := Nat.exists_eq_succ_of_ne_zero (by omega : fuel ≠ 0)
  induction k with
  | zero => rfl
  | succ k ih => rw [imulOuter]; simp [imulInner, ih]

theorem imul_does (fuel : Nat) (hf : 0 < fuel) (n : Int) (hn : n ≤ 1 ∨ s.vec = []) (H : OHost) :
    Does (imul fuel s n) s (Spec.ostep H s.vec (.imul n)) (leaked s.vec (.imul n)) := by
  unfold imul
  simp only [Spec.ostep, Spec.ocopies, leaked]
  by_cases h0 : n ≤ 0
  · have e : n.toNat = 0 := by omega
    have e2 : (if n < 0 then 0 else n) = 0 := by split <;> omega
    simp only [e2, e, if_true, if_pos h0, List.replicate_zero, List.flatten_nil]
    refine ⟨s.heap, rfl, (Adj.refl _).congr fun x => ?_⟩
    simp [delta, Spec.carried]; omega
  · have e2 : (if n < 0 then 0 else n) = n := by split <;> omega
    simp only [e2, if_neg h0]
    rw [if_neg (by omega)]
    rcases hn with hn | hn
    · obtain rfl : n = 1 := by omega
      simp only [Int.toNat_one, imulOuter, Nat.sub_self, List.replicate_one, List.flatten_singleton]
      exact does_same rfl rfl
    · have e3 : (List.replicate n.toNat s.vec).flatten = s.vec := by rw [hn]; simp
      rw [e3]
      have e4 : imulOuter fuel (n.toNat - 1) s.vec s.heap = some (.ok (s.vec, s.heap)) := by
        rw [hn]; exact imulOuter_nil fuel _ hf _
      rw [e4]
      exact does_same rfl rfl

theorem resize_does {a : Arg} (H : OHost)
    (hok : OpOk H s.heap.imm s.vec (.resize a)) :
    Does (resize H s a) s (Spec.ostep H s.vec (.resize a)) (leaked s.vec (.resize a)) := by
  cases a with
  | index v => exact does_err _
  | other => exact does_err _
  | int v =>
    simp only [resize, asSsize, Spec.ostep, leaked]
    by_cases h : FitsS 64 v
    · simp only [h, if_true, show Spec.InRange 64 v from h, and_true]
      by_cases h0 : 0 ≤ v
      · rw [if_pos h0, if_neg (by omega), if_pos h0]
        refine ⟨s.heap, rfl, (Adj.refl _).1, fun o ho => ?_⟩
        have e : s.vec.count o = (s.vec.take v.toNat).count o + (s.vec.drop v.toNat).count o := by
          rw [← List.count_append, List.take_append_drop]
        have e2 : (List.replicate (v.toNat - s.vec.length) H.none).count o = 0 := by
          rw [List.count_eq_zero]
          intro hm
          obtain ⟨h1, rfl⟩ := List.mem_replicate.1 hm
          rcases hok with h2 | h2 | h2
          · rw [h2] at ho; cases ho
          · omega
          · exact h2 h
        simp only [delta, Spec.carried, List.count_nil, List.count_append]
        omega
      · rw [if_neg h0, if_pos (by omega), if_neg h0]; exact does_err _
    · have h' : ¬ Spec.InRange 64 v := h
      simp only [h, h', and_false, if_false]
      exact does_err _

theorem whole_of {n : Nat} {m : Bytes (Obj × Nat)} (h : ∀ i b, i < n → b < 8 → m (i * 8 + b) = ((m (i * 8)).1, b)) :
    whole n m = true := by
  unfold whole
  simp only [List.all_eq_true, List.mem_range, beq_iff_eq]
  exact fun i hi b hb => h i b hi hb

theorem reverse_eq (cfg : Cfg) (s : OState) : reverse cfg s = .ok ⟨s.vec.reverse, s.heap⟩ .none := by
  obtain ⟨m', h1, h2, -⟩ := qReverse8_ok cfg s.vec.length (toPtrs s.vec)
  unfold reverse
  rw [show qReverse cfg 8 s.vec.length (toPtrs s.vec) = some m' from h1]
  simp only
  have hm : ∀ i b, i < s.vec.length → b < 8 → m' (i * 8 + b) = (s.vec.getD (s.vec.length - 1 - i) 0, b) := by
    intro i b hi hb
    rw [h2 i b hi hb]
    unfold toPtrs
    rw [show ((s.vec.length - 1 - i) * 8 + b) / 8 = s.vec.length - 1 - i by omega,
      show ((s.vec.length - 1 - i) * 8 + b) % 8 = b by omega]
  rw [if_pos (whole_of fun i b hi hb => by
    rw [hm i b hi hb, show i * 8 = i * 8 + 0 from rfl, hm i 0 hi (by omega)])]
  congr 2
  refine List.ext_getElem (by simp) fun i hi1 hi2 => ?_
  have hi : i < s.vec.length := by simpa using hi1
  rw [List.getElem_reverse]
  simp only [List.getElem_map, List.getElem_range]
  have := hm i 0 hi (by omega)
  simp only [Nat.add_zero] at this
  rw [this]
  simp [show s.vec.length - 1 - i < s.vec.length by omega]

theorem reverse_does (cfg : Cfg) (H : OHost) : Does (reverse cfg s) s (Spec.ostep H s.vec .reverse) [] := by
  rw [reverse_eq]
  refine ⟨s.heap, rfl, (Adj.refl _).congr fun x => ?_⟩
  simp [delta, Spec.ostep, Spec.carried, List.count_reverse]

/-! ### comparison -/

theorem compare1_ok (H : OHost) (op : CmpOp) (x y : Obj) (h : Heap) (hl : h.imm x = true ∨ 0 < h.rc x) :
    ∃ h', compare1 H op x y h = .ok (H.richBool op x y, h') ∧ Adj h h' (fun _ => 0) := by
  have a1 := gain_adj h y
  have hlive : (h.gain y).live x = true := by
    unfold live
    rw [a1.1]
    by_cases him : h.imm x = true
    · simp [him]
    · have h4 := a1.2 x (by simpa using him)
      have h5 := hl.resolve_left him
      dsimp only at h4
      simp only [Bool.or_eq_true, decide_eq_true_eq]
      right; omega
  obtain ⟨h2, e2, a2⟩ := decref_ok (h := h.gain y) (o := y) (by
    by_cases him : h.imm y = true
    · left; rw [a1.1]; exact him
    · right
      have h4 := a1.2 y (by simpa using him)
      have : List.count y [y] = 1 := by simp
      dsimp only at h4
      omega)
  refine ⟨h2, by simp [compare1, hlive, e2], (a1.trans a2).congr fun o => by omega⟩

theorem adj_zero_live {h h' : Heap} (a : Adj h h' (fun _ => 0)) {o : Obj} (hl : h.imm o = true ∨ 0 < h.rc o) :
    h'.imm o = true ∨ 0 < h'.rc o := by
  rw [a.1]
  by_cases him : h.imm o = true
  · exact .inl him
  · right
    have h4 := a.2 o (by simpa using him)
    have := hl.resolve_left him
    dsimp only at h4
    omega

/-- Outcome of the loops of `==` and `!=`. -/
def eqRes (v : List Obj) (stop : Bool) (r : Except Exc (Option (Obj × Obj))) : Spec.ORes :=
  match r with
  | .error e => (v, .error e)
  | .ok none => (v, .ok (.bool (!stop)))
  | .ok (some _) => (v, .ok (.bool stop))

theorem eqLoop_ok (H : OHost) (op : CmpOp) (stop : Bool) (xs ys v : List Obj) (h : Heap)
    (hr : ∀ x ∈ xs, ∀ y ∈ ys, H.richBool op x y = (Spec.same H x y).map fun b => xor b stop)
    (hl : ∀ x ∈ xs, h.imm x = true ∨ 0 < h.rc x) :
    ∃ h', eqLoop H op stop xs ys ⟨v, h⟩ = outOf (eqRes v stop (Spec.firstDiff H xs ys)) h' ∧
      Adj h h' (fun _ => 0) := by
  induction xs generalizing ys h with
  | nil => exact ⟨h, by cases ys <;> rfl, Adj.refl h⟩
  | cons x xs ih =>
    cases ys with
    | nil => exact ⟨h, rfl, Adj.refl h⟩
    | cons y ys =>
      obtain ⟨h1, e1, a1⟩ := compare1_ok H op x y h (hl x (by simp))
      rw [eqLoop]
      simp only [e1, hr x (by simp) y (by simp), Spec.firstDiff]
      cases hs : Spec.same H x y with
      | error e => exact ⟨h1, rfl, a1⟩
      | ok b =>
        simp only [Except.map]
        cases b with
        | false =>
          simp only [Bool.false_bne, if_true]
          exact ⟨h1, rfl, a1⟩
        | true =>
          have : ¬ ((true ^^ stop) = stop) := by cases stop <;> decide
          rw [if_neg this]
          obtain ⟨h2, e2, a2⟩ := ih ys h1 (fun a ha b hb => hr a (by simp [ha]) b (by simp [hb]))
            (fun o ho => adj_zero_live a1 (hl o (by simp [ho])))
          exact ⟨h2, e2, (a1.trans a2).congr (by simp)⟩

theorem richBool_eq (H : OHost) (x y : Obj) : H.richBool .eq x y = (Spec.same H x y).map fun b => xor b false := by
  unfold OHost.richBool Spec.same
  by_cases e : x = y
  · simp [e, Except.map]
  · simp only [if_neg e]
    cases H.rich .eq x y <;> simp [Except.map]

theorem richBool_ne (H : OHost) (x y : Obj) (h : x ≠ y → H.rich .ne x y = (H.rich .eq x y).map (!·)) :
    H.richBool .ne x y = (Spec.same H x y).map fun b => xor b true := by
  unfold OHost.richBool Spec.same
  by_cases e : x = y
  · simp [e, Except.map]
  · simp only [if_neg e, h e]
    cases H.rich .eq x y <;> simp [Except.map]

theorem does_zero {r : Except Exc OVal} (hc : Spec.carried r = []) {o : OOut} {h' : Heap}
    (ho : o = outOf (s.vec, r) h') (ha : Adj s.heap h' (fun _ => 0)) : Does o s (s.vec, r) [] := by
  refine ⟨h', ho, ha.congr fun x => ?_⟩
  simp [delta, hc]

/-- The list an operand is. -/
theorem asList_facts {src : OSrc} {l r : List Obj} (h : Spec.asList l src = some r) :
    src.size l = r.length ∧ src.elems l = r ∧ (∀ xs f, src ≠ .iter xs f) ∧ src ≠ .notIterable ∧
      ∀ xs, src ≠ .seqNoLen xs := by
  cases src <;> simp [Spec.asList] at h <;> subst h <;> simp [OSrc.size, OSrc.elems]

theorem eqNe_asList {H : OHost} {op : CmpOp} {stop : Bool} {src : OSrc} {r : List Obj}
    (h : Spec.asList s.vec src = some r) :
    eqNe H op stop s src = (if r.length ≠ s.vec.length then .ok s (.bool stop) else eqLoop H op stop s.vec r s) := by
  cases src <;> simp [Spec.asList] at h <;> subst h <;> simp [eqNe, OSrc.size, OSrc.elems, Int.natCast_inj]

theorem ord_lengths {H : OHost} {op : CmpOp} {src : OSrc} {r : List Obj} (h : Spec.asList s.vec src = some r)
    (hl : r.length ≠ s.vec.length) : ord H op s src = .ok s (.bool (decide (s.vec.length < r.length))) := by
  cases src <;> simp [Spec.asList] at h <;> subst h <;> simp [ord, OSrc.size, OSrc.elems, Int.natCast_inj, hl] <;>
    exact absurd rfl hl

theorem ord_heads {H : OHost} {op : CmpOp} {src : OSrc} {x y : Obj} {xs ys : List Obj}
    (hv : s.vec = x :: xs) (h : Spec.asList s.vec src = some (y :: ys)) (hl : xs.length = ys.length) :
    ord H op s src = (match compare1 H op x y s.heap with
        | .error u => .ub u
        | .ok (.error e, h) => .exc ⟨s.vec, h⟩ e
        | .ok (.ok b, h) => .ok ⟨s.vec, h⟩ (.bool b)) := by
  cases src <;> simp [Spec.asList] at h
  · subst h; simp [ord, OSrc.size, OSrc.elems, hv, hl]
    rcases compare1 H op x y s.heap with u | ⟨e | b, h⟩ <;> rfl
  · rw [hv] at h; simp only [List.cons.injEq] at h; obtain ⟨rfl, rfl⟩ := h
    simp [ord, OSrc.size, OSrc.elems, hv]
    rcases compare1 H op x x s.heap with u | ⟨e | b, h⟩ <;> rfl
  · subst h; simp [ord, OSrc.size, OSrc.elems, hv, hl]
    rcases compare1 H op x y s.heap with u | ⟨e | b, h⟩ <;> rfl

theorem compare_does (hc : Covered ext s.heap s.vec) {op : CmpOp} {src : OSrc} {H : OHost}
    (hok : OObj.CmpOk H op s.vec src) :
    Does (ObjArray.compare H op s src) s (Spec.ostep H s.vec (.cmp op src)) [] := by
  unfold OObj.CmpOk at hok
  simp only [Spec.ostep, Spec.ocmp]
  cases ha : Spec.asList s.vec src with
  | none =>
    rw [ha] at hok
    obtain ⟨h1, h2⟩ := hok
    cases src with
    | iter xs f => rcases h1 with rfl | rfl <;> exact does_same rfl rfl
    | notIterable => rcases h1 with rfl | rfl <;> exact does_same rfl rfl
    | _ => exact absurd h2 id
  | some r =>
    rw [ha] at hok
    have hlv : ∀ x ∈ s.vec, s.heap.imm x = true ∨ 0 < s.heap.rc x := fun x hx => hc.live hx
    have eqne : ∀ (op : CmpOp) (stop : Bool), (op = .eq ∧ stop = false ∨ op = .ne ∧ stop = true) →
        (∀ x ∈ s.vec, ∀ y ∈ r, H.richBool op x y = (Spec.same H x y).map fun b => xor b stop) →
        Does (eqNe H op stop s src) s (s.vec, (Spec.ocompare H op s.vec r).map .bool) [] := by
      intro op stop hop hr
      rw [eqNe_asList ha]
      unfold Spec.ocompare
      by_cases hlen : r.length = s.vec.length
      · rw [if_neg (by simp [hlen]), if_neg (by simp [hlen])]
        obtain ⟨h1, e1, a1⟩ := eqLoop_ok H op stop s.vec r s.vec s.heap hr hlv
        rw [show s = ⟨s.vec, s.heap⟩ from rfl, e1]
        cases hd : Spec.firstDiff H s.vec r with
        | error e => exact does_zero rfl rfl a1
        | ok d =>
          cases d with
          | none =>
            have : Spec.opLen op s.vec.length r.length = !stop := by
              rcases hop with ⟨rfl, rfl⟩ | ⟨rfl, rfl⟩ <;> simp [Spec.opLen, hlen]
            simp only [this]
            exact does_zero rfl rfl a1
          | some d =>
            rcases hop with ⟨rfl, rfl⟩ | ⟨rfl, rfl⟩ <;> exact does_zero rfl rfl a1
      · rw [if_pos (by simpa using hlen), if_pos ⟨by rcases hop with ⟨rfl, -⟩ | ⟨rfl, -⟩ <;> simp, by omega⟩]
        rcases hop with ⟨rfl, rfl⟩ | ⟨rfl, rfl⟩ <;> exact does_same rfl rfl
    have ordr : ∀ op : CmpOp, op ≠ .eq → op ≠ .ne → OObj.ordOk H op s.vec r →
        Does (ord H op s src) s (s.vec, (Spec.ocompare H op s.vec r).map .bool) [] := by
      intro op h1 h2 ho
      cases hv : s.vec with
      | nil => rw [hv] at ho; exact absurd ho id
      | cons x xs =>
        cases r with
        | nil => rw [hv] at ho; exact absurd ho id
        | cons y ys =>
          rw [hv] at ho
          obtain ⟨hlen, ho⟩ := ho
          rw [ord_heads hv ha hlen]
          obtain ⟨h3, e3, a3⟩ := compare1_ok H op x y s.heap (hlv x (by simp [hv]))
          simp only [e3]
          have hrb : H.richBool op x y = H.rich op x y := by
            unfold OHost.richBool
            split
            · cases op <;> first | rfl | contradiction
            · rfl
          unfold Spec.ocompare
          rw [if_neg (by simp [h1, h2]), hrb]
          rcases ho with ⟨hne, hr⟩ | ⟨rfl, hr, hr2⟩
          · simp only [Spec.firstDiff, Spec.same, if_neg hne, hr]
            rw [← hv]
            cases H.rich op x y with
            | error e => exact does_zero rfl rfl a3
            | ok b => exact does_zero rfl rfl a3
          · have hys : ys = [] := by simpa using hlen.symm
            subst hys
            simp only [Spec.firstDiff, hr, hr2]
            have : Spec.opLen op [x].length [y].length = decide (op = .le ∨ op = .ge) := by
              cases op <;> first | rfl | contradiction
            rw [this, ← hv]
            exact does_zero rfl rfl a3
    cases op with
    | eq => exact eqne .eq false (.inl ⟨rfl, rfl⟩) (fun x _ y _ => richBool_eq H x y)
    | ne => exact eqne .ne true (.inr ⟨rfl, rfl⟩) (fun x hx y hy => richBool_ne H x y (hok x hx y hy))
    | lt => exact ordr .lt (by simp) (by simp) hok
    | le => exact ordr .le (by simp) (by simp) hok
    | gt => exact ordr .gt (by simp) (by simp) hok
    | ge => exact ordr .ge (by simp) (by simp) hok

/-! ### one step -/

theorem step_does (cfg : Cfg) (H : OHost) (fuel : Nat) (hf : 0 < fuel) (hc : Covered ext s.heap s.vec) {op : OOp}
    (hok : OpOk H s.heap.imm s.vec op) (hh : Held ext s.heap op) :
    Does (step cfg H fuel s op) s (Spec.ostep H s.vec op) (leaked s.vec op) := by
  cases op with
  | append o => exact append_does hc (hh o (by simp [Spec.mentioned])) H
  | extend src => exact extend_does hc hok hh H
  | insert i o => exact insert_does hc (hh o (by simp [Spec.mentioned])) H
  | pop i => exact pop_does hok H
  | remove o => exact remove_does hc hok
  | index o i j => exact index_does hok.1 hok.2.1 hok.2.2
  | count o => exact count_does hok
  | contains o => exact contains_does hok.1 hok.2
  | get k => exact get_does hc k H (by cases k <;> exact hok)
  | setItem a o => exact setItem_does hc hok (hh o (by simp [Spec.mentioned])) H
  | setSlice sl src => exact setSlice_does hc H hok hh
  | del k => exact del_does hc k H (by cases k <;> exact hok)
  | iadd src => exact iadd_does hok.1 hok.2 H
  | add src => exact add_does hc hok.1 hok.2 hh H
  | mul n => exact mul_does hc n
  | rmul a => exact rmul_does hc a H
  | imul n => exact imul_does fuel hf n hok H
  | cmp op src => exact compare_does hc hok
  | reverse => exact reverse_does cfg H
  | resize a =>
    have := resize_does (s := s) (a := a) H hok
    cases a <;> exact this
  | clear => exact clear_does hc H
  | copy => exact copy_does hc H
  | toList => exact toList_does hc H
  | len => exact does_same rfl rfl

/-- A call in the domain keeps the counts above the holders. -/
theorem covered_after {l' : List Obj} {r : Except Exc OVal} {lk : List Obj} {h' : Heap}
    (hc : Covered ext s.heap s.vec) (ha : Adj s.heap h' (delta s.vec (l', r) lk)) :
    Covered (fun o => ext o + (Spec.carried r).count o) h' l' := by
  intro o ho
  rw [ha.1] at ho
  have h1 := hc o ho
  have h2 := ha.2 o ho
  simp only [delta] at h2
  dsimp only
  omega

theorem balanced_after {l' : List Obj} {r : Except Exc OVal} {h' : Heap}
    (hc : Balanced ext s.heap s.vec) (ha : Adj s.heap h' (delta s.vec (l', r) [])) :
    Balanced (fun o => ext o + (Spec.carried r).count o) h' l' := by
  intro o ho
  rw [ha.1] at ho
  have h1 := hc o ho
  have h2 := ha.2 o ho
  simp only [delta, List.count_nil] at h2
  dsimp only
  omega

theorem Covered.mono {ext ext' : Obj → Nat} {h : Heap} {l : List Obj} (hc : Covered ext h l)
    (he : ∀ o, ext' o ≤ ext o) : Covered ext' h l := fun o ho => by
  have := hc o ho; have := he o; omega

/-! ### sessions and histories -/

theorem play_ok (cfg : Cfg) (H : OHost) (fuel : Nat) (hf : 0 < fuel) (es : List OEvent) :
    ∀ (ext base : Obj → Nat) (s : OState),
    (∀ o, s.heap.imm o = false → s.heap.rc o = ext o + s.vec.count o + base o) →
    SessionOk H s.heap.imm ext s.vec es →
    ∃ s', play cfg H fuel s es = some s' ∧ s'.vec = Spec.contents H s.vec es ∧ s'.heap.imm = s.heap.imm ∧
      ∀ o, s.heap.imm o = false → s'.heap.rc o =
        Spec.holdings H ext s.vec es o + s'.vec.count o + ((lost H s.vec es).count o + base o) := by
  induction es with
  | nil =>
    intro ext base s hb _
    refine ⟨s, rfl, rfl, rfl, fun o ho => ?_⟩
    have := hb o ho
    simp only [Spec.holdings, lost, List.count_nil]
    omega
  | cons e es ih =>
    intro ext base s hb hok
    cases e with
    | call op =>
      obtain ⟨h1, h2, h3⟩ := hok
      have hc : Covered ext s.heap s.vec := fun o ho => by have := hb o ho; omega
      obtain ⟨h', e1, a1⟩ := step_does cfg H fuel hf hc h1 h2
      generalize hr : Spec.ostep H s.vec op = res at *
      obtain ⟨l', r⟩ := res
      obtain ⟨s', p1, p2, p3, p4⟩ := ih (Spec.receive ext r) (fun o => base o + (leaked s.vec op).count o) ⟨l', h'⟩
        (by
          intro o ho
          rw [a1.1] at ho
          have q1 := a1.2 o ho
          have q2 := hb o ho
          simp only [delta] at q1
          simp only [Spec.receive]
          omega)
        (by rw [a1.1]; exact h3)
      refine ⟨s', ?_, ?_, ?_, ?_⟩
      · rw [play, e1]
        cases r <;> exact p1
      · rw [p2]; simp only [Spec.contents, hr]
      · rw [p3]; exact a1.1
      · intro o ho
        have q := p4 o (by rw [a1.1]; exact ho)
        simp only [Spec.holdings, lost, hr, List.count_append]
        simp only at q
        omega
    | drop o =>
      obtain ⟨h1, h2⟩ := hok
      obtain ⟨h', e1, a1⟩ := decref_ok (h := s.heap) (o := o) (by
        by_cases him : s.heap.imm o = true
        · exact .inl him
        · right
          have := hb o (by simpa using him)
          have := h1.resolve_left him
          omega)
      obtain ⟨s', p1, p2, p3, p4⟩ := ih (Spec.release ext o) base ⟨s.vec, h'⟩
        (by
          intro x hx
          rw [a1.1] at hx
          have q1 := a1.2 x hx
          have q2 := hb x hx
          dsimp only at q1
          simp only [Spec.release]
          by_cases e : x = o
          · subst e
            have h3 : 0 < ext x := h1.resolve_left (by simp [hx])
            have : List.count x [x] = 1 := by simp
            rw [if_pos rfl]
            omega
          · have : List.count x [o] = 0 := by simp [Ne.symm e]
            rw [if_neg e]
            omega)
        (by rw [a1.1]; exact h2)
      refine ⟨s', ?_, ?_, ?_, ?_⟩
      · rw [play, e1]; exact p1
      · rw [p2]; simp only [Spec.contents]
      · rw [p3]; exact a1.1
      · intro x hx
        have q := p4 x (by rw [a1.1]; exact hx)
        simp only [Spec.holdings, lost]
        simp only at q
        omega

theorem run_ok (cfg : Cfg) (H : OHost) (fuel : Nat) (hf : 0 < fuel) (ops : List OOp) :
    ∀ s : OState, Covered ext s.heap s.vec → HistoryOk H s.heap.imm s.vec ops →
    (∀ op ∈ ops, Held ext s.heap op) → OAgreesAll (run cfg H fuel s ops) (Spec.orun H s.vec ops) := by
  induction ops with
  | nil => intro s _ _ _; exact trivial
  | cons op ops ih =>
    intro s hc hok hh
    have hd := step_does cfg H fuel hf hc hok.1 (hh op (by simp))
    have hag := hd.agrees
    obtain ⟨h', e1, a1⟩ := hd
    rw [e1] at hag
    rw [run, Spec.orun, e1]
    have hok2 := hok.2
    generalize Spec.ostep H s.vec op = res at *
    obtain ⟨l', r⟩ := res
    have hc' : Covered ext h' l' := Covered.mono (covered_after hc a1) (fun o => Nat.le_add_right _ _)
    have := ih ⟨l', h'⟩ hc' (by rw [a1.1]; exact hok2)
      (fun op' hop o ho => by rw [a1.1]; exact hh op' (by simp [hop]) o ho)
    cases r with
    | ok v => exact ⟨hag, this⟩
    | error e => exact ⟨hag, this⟩

/-- `*=` with a factor of at least 2 on a non-empty list: the inner loop never reaches the end. -/
theorem imulInner_none (fuel j : Nat) (v : List Obj) (h : Heap) (hj : j < v.length)
    (hl : ∀ o ∈ v, h.imm o = true ∨ 0 < h.rc o) : imulInner fuel j v h = none := by
  induction fuel generalizing j v h with
  | zero => rfl
  | succ f ih =>
    rw [imulInner, List.getElem?_eq_getElem hj]
    obtain ⟨h1, e1, a1⟩ := incref_ok (hl _ (List.getElem_mem hj))
    simp only [e1]
    apply ih (j + 1) _ h1 (by simp; omega)
    intro o ho
    have ho : o ∈ v := by
      rcases List.mem_append.1 ho with h2 | h2
      · exact h2
      · rw [List.mem_singleton.1 h2]; exact List.getElem_mem hj
    rw [a1.1]
    by_cases him : h.imm o = true
    · exact .inl him
    · right
      have q1 := a1.2 o (by simpa using him)
      have q2 := (hl o ho).resolve_left him
      dsimp only at q1
      omega

end ObjArray
end Verif
