import Verif.Spec.Guard
import Verif.Lemmas.Slice
import Verif.Lemmas.SimdCopy
import Verif.Lemmas.QReverse

/-! Helper lemmas: the functions of the array list model against the Python-list specification. -/

namespace Verif.ArrayList

open Verif

theorem noTrunc_i64 (a : Arg) : NoTrunc .i64 a := by
  cases a <;> simp [NoTrunc, Kind.bits]

theorem toElem_fits (K : Kind) (a : Arg) : FitsS K.bits (toElem K a).1 := wrapS_fits _ _

theorem wrapS_neg_one (K : Kind) : wrapS K.bits (-1) = -1 := by cases K <;> decide

theorem toElem_eq {K : Kind} {a : Arg} (h : NoTrunc K a) :
    toElem K a = (match Spec.elem K.bits a with | .ok v => (v, none) | .error e => (-1, some e)) := by
  unfold toElem
  cases a with
  | other => simp [asLong, Spec.elem, wrapS_neg_one]
  | int v | index v =>
    simp only [asLong, Spec.elem, NoTrunc] at *
    by_cases h64 : FitsS 64 v
    · have hv := h h64
      rw [if_pos h64, if_pos (show Spec.InRange K.bits v from hv)]
      simp [wrapS_of_fits K hv]
    · have hv : ¬ Spec.InRange K.bits v := fun h' => h64 (K.fits64_of h')
      rw [if_neg h64, if_neg hv]
      simp [wrapS_neg_one]

theorem toElem_int {K : Kind} {v : Int} (hv : FitsS K.bits v) : toElem K (.int v) = (v, none) := by
  rw [toElem_eq (show NoTrunc K (.int v) from fun _ => hv)]
  simp [Spec.elem, show Spec.InRange K.bits v from hv]

theorem parseElem_eq (K : Kind) (a : Arg) :
    parseElem K a = (match Spec.elem K.bits a with | .ok v => (v, none) | .error e => (-1, some e)) := by
  have key : ∀ v, (if FitsS K.bits v then ((v, none) : CRes) else (-1, some .overflowError)) =
      (match (if Spec.InRange K.bits v then .ok v else .error .overflowError : Except Exc Int) with
        | .ok v => (v, none) | .error e => (-1, some e)) := by
    intro v
    by_cases h : FitsS K.bits v
    · rw [if_pos h, if_pos (show Spec.InRange K.bits v from h)]
    · rw [if_neg h, if_neg (show ¬ Spec.InRange K.bits v from h)]
  cases K <;> cases a <;> first | exact key _ | rfl

theorem parseN_eq (a : Arg) :
    parseN a = (match Spec.word .overflowError a with | .ok v => (v, none) | .error e => (-1, some e)) := by
  have key : ∀ v, (if FitsS 64 v then ((v, none) : CRes) else (-1, some .overflowError)) =
      (match (if Spec.InRange 64 v then .ok v else .error .overflowError : Except Exc Int) with
        | .ok v => (v, none) | .error e => (-1, some e)) := by
    intro v
    by_cases h : FitsS 64 v
    · rw [if_pos h, if_pos (show Spec.InRange 64 v from h)]
    · rw [if_neg h, if_neg (show ¬ Spec.InRange 64 v from h)]
  cases a <;> first | exact key _ | rfl

theorem asSsizeIndex_eq (a : Arg) :
    asSsizeIndex a = (match Spec.word .indexError a with | .ok v => (v, none) | .error e => (-1, some e)) := by
  have key : ∀ v, (if FitsS 64 v then ((v, none) : CRes) else (-1, some .indexError)) =
      (match (if Spec.InRange 64 v then .ok v else .error .indexError : Except Exc Int) with
        | .ok v => (v, none) | .error e => (-1, some e)) := by
    intro v
    by_cases h : FitsS 64 v
    · rw [if_pos h, if_pos (show Spec.InRange 64 v from h)]
    · rw [if_neg h, if_neg (show ¬ Spec.InRange 64 v from h)]
  cases a <;> first | exact key _ | rfl

theorem elem_fits {K : Kind} {a : Arg} {v : Int} (h : Spec.elem K.bits a = .ok v) : FitsS K.bits v := by
  cases a <;> simp only [Spec.elem] at h
  · split at h
    · cases h; assumption
    · cases h
  · split at h
    · cases h; assumption
    · cases h
  · cases h

/-! ### append, extend -/

theorem append_ok (K : Kind) (l : List Int) (a : Arg) (h : NoTrunc K a) :
    Agrees (append K l a) (Spec.step K.bits l (.append a)) := by
  simp only [append, toElem_eq h, Spec.step]
  cases Spec.elem K.bits a <;> simp [Agrees, RetIs]

theorem elem_isElem (b : Nat) (a : Arg) :
    Spec.elem b a = if Spec.IsElem b a then .ok (Spec.argVal a)
      else .error (match a with | .other => .typeError | _ => .overflowError) := by
  cases a <;> simp [Spec.elem, Spec.IsElem, Spec.argVal]

theorem extendLoop_eq (K : Kind) (xs : List Arg) (l : List Int) (h : ∀ a ∈ xs, NoTrunc K a) :
    extendLoop K xs l = (l ++ Spec.prefixElems K.bits xs, Spec.firstBad K.bits xs) := by
  induction xs generalizing l with
  | nil => simp [extendLoop, Spec.prefixElems, Spec.firstBad]
  | cons a as ih =>
    rw [extendLoop, toElem_eq (h a (by simp)), elem_isElem]
    by_cases he : Spec.IsElem K.bits a
    · simp only [he, if_true]
      rw [ih _ (fun b hb => h b (by simp [hb]))]
      simp [Spec.prefixElems, Spec.firstBad, he]
    · simp only [he, Bool.false_eq_true, if_false]
      cases a <;> simp [Spec.prefixElems, Spec.firstBad, he]

theorem extendWith_list (K : Kind) (l : List Int) (xs : List Arg) (f : Option Exc) (r : Ret) (v : Spec.Val)
    (hrv : RetIs r v) (h : ∀ a ∈ xs, NoTrunc K a) :
    Agrees (match extendLoop K xs l, f with
      | (l', some e), _ => .exc l' e
      | (l', none), none => .ok l' r
      | (l', none), some e => .exc l' e)
     (match Spec.firstBad K.bits xs, f with
    | some e, _ => (l ++ Spec.prefixElems K.bits xs, .error e)
    | none, some e => (l ++ Spec.prefixElems K.bits xs, .error e)
    | none, none => (l ++ Spec.prefixElems K.bits xs, .ok v)) := by
  rw [extendLoop_eq K xs l h]
  cases Spec.firstBad K.bits xs <;> cases f <;> simp [Agrees, hrv]

theorem prefix_map_int {b : Nat} {v : List Int} (h : ∀ x ∈ v, Spec.InRange b x) :
    Spec.prefixElems b (v.map Arg.int) = v ∧ Spec.firstBad b (v.map Arg.int) = none := by
  induction v with
  | nil => simp [Spec.prefixElems, Spec.firstBad]
  | cons x xs ih =>
    have h1 := h x (by simp)
    obtain ⟨i1, i2⟩ := ih (fun y hy => h y (by simp [hy]))
    simp only [Spec.prefixElems, Spec.firstBad] at *
    simp [Spec.IsElem, h1, i1, Spec.argVal]
    simpa [Spec.IsElem] using i2

theorem extendWith_ok (K : Kind) (l : List Int) (s : Src) (r : Ret) (v : Spec.Val) (hrv : RetIs r v)
    (h : SrcNoTrunc K s) (hs : s ≠ .self) (hsame : ∀ x, s = .same x → AllFits K x ∧ v = .none) :
    Agrees (extendWith K l s r) (Spec.absorb K.bits l s v) := by
  cases s with
  | same x =>
    obtain ⟨h1, rfl⟩ := hsame x rfl
    obtain ⟨p1, p2⟩ := prefix_map_int (b := K.bits) h1
    simp [extendWith, Spec.absorb, Spec.items, p1, p2, Agrees, RetIs]
  | self => exact absurd rfl hs
  | notIterable => simp [extendWith, Spec.absorb, Spec.items, Agrees]
  | iter xs f =>
    simp only [extendWith, Spec.absorb, Spec.items]
    exact extendWith_list K l xs f r v hrv h
  | list xs | tuple xs | seq xs | seqNoLen xs =>
    have := extendWith_list K l xs none r v hrv h
    simp only [extendWith, Spec.absorb, Spec.items]
    rw [extendLoop_eq K xs l h] at *
    cases hb : Spec.firstBad K.bits xs <;> simp only [hb] at this ⊢ <;> exact this

/-! ### indices -/

theorem position_eq (n : Nat) (i : Int) :
    Spec.position n i =
      (let i' := if i < 0 then i + n else i
       if i' < 0 ∨ i' ≥ n then none else some i'.toNat) := by
  unfold Spec.position
  by_cases h0 : i < 0
  · simp only [h0, if_true]
    rw [if_neg (by omega)]
    by_cases h1 : -(n : Int) ≤ i
    · rw [if_pos ⟨trivial, h1⟩, if_neg (by omega)]
      congr 1; omega
    · rw [if_neg (by simp [h1]), if_pos (by omega)]
  · simp only [h0, if_false]
    by_cases h1 : i < n
    · rw [if_pos ⟨by omega, h1⟩, if_neg (by simp; omega)]
    · rw [if_neg (show ¬ (0 ≤ i ∧ i < (n : Int)) by omega), if_neg (by simp),
        if_pos (by simp; omega)]

theorem position_lt {n : Nat} {i : Int} {p : Nat} (h : Spec.position n i = some p) : p < n := by
  unfold Spec.position at h
  split at h
  · cases h; omega
  · split at h
    · cases h; omega
    · cases h

theorem getItem_eq (cfg : Cfg) (K : Kind) (l : List Int) (i : Int) :
    getItem cfg K l i = (match Spec.position l.length i with
      | none => .exc l .indexError
      | some p => .ok l (.int (box K cfg.py (l.getD p 0)))) := by
  unfold getItem
  rw [position_eq, show (l.length : Int) + i = i + l.length from Int.add_comm _ _]
  simp only
  generalize (if i < 0 then i + (l.length : Int) else i) = j
  split
  · rfl
  · have : j.toNat < l.length := by omega
    simp [this]

theorem setItem_eq (K : Kind) (l : List Int) (i : Int) (a : Option Arg) :
    setItem K l i a = (match Spec.position l.length i with
      | none => .exc l .indexError
      | some p => match a with
        | none => .ok (l.take p ++ l.drop (p + 1)) .none
        | some a => match toElem K a with
          | (_, some e) => .exc l e
          | (v, none) => .ok (l.take p ++ v :: l.drop (p + 1)) .none) := by
  unfold setItem
  rw [position_eq, show (l.length : Int) + i = i + l.length from Int.add_comm _ _]
  simp only
  generalize (if i < 0 then i + (l.length : Int) else i) = j
  split
  · rfl
  · have hj : j.toNat < l.length := by omega
    simp only [hj, if_true, List.eraseIdx_eq_take_drop_succ, List.set_eq_take_append_cons_drop]
    cases a with
    | none => rfl
    | some a =>
      simp only
      rcases toElem K a with ⟨v, _ | e⟩ <;> rfl

/-! ### searching -/

theorem findFrom_eq [DecidableEq α] (l : List α) (start stop : Nat) (v : α) (h : stop ≤ l.length) :
    findFrom l start stop v = Spec.firstAt l start stop v := by
  apply Option.ext
  intro k
  have h1 : Spec.firstAt l start stop v = some k ↔
      (start ≤ k ∧ k < stop ∧ l[k]? = some v) ∧ ∀ j < k, ¬ (start ≤ j ∧ j < stop ∧ l[j]? = some v) := by
    unfold Spec.firstAt
    rw [List.find?_range_eq_some]
    simp only [decide_eq_true_eq, List.mem_range, Bool.not_eq_true', decide_eq_false_iff_not,
      Int.ofNat_le, Int.ofNat_lt]
    constructor
    · rintro ⟨a, b, c⟩; exact ⟨a, c⟩
    · rintro ⟨a, c⟩; exact ⟨a, by omega, c⟩
  have h2 : findFrom l start stop v = some k ↔
      ∃ i, ((l.take stop).drop start).findIdx? (· == v) = some i ∧ start + i = k := by
    unfold findFrom; split <;> simp [*]
  have get : ∀ i, ((l.take stop).drop start)[i]? = if start + i < stop then l[start + i]? else none := by
    intro i; rw [List.getElem?_drop, List.getElem?_take]
  rw [h1, h2]
  constructor
  · rintro ⟨i, hi, rfl⟩
    rw [List.findIdx?_eq_some_iff_getElem] at hi
    obtain ⟨hl, h3, h4⟩ := hi
    have hl' : start + i < stop := by simp at hl; omega
    have g := get i
    rw [if_pos hl', List.getElem?_eq_getElem hl] at g
    refine ⟨⟨by omega, hl', ?_⟩, ?_⟩
    · rw [← g]; simpa using h3
    · rintro j hj ⟨j1, j2, j3⟩
      have hj' : j - start < i := by omega
      have hl2 : j - start < ((l.take stop).drop start).length := by omega
      have g2 := get (j - start)
      rw [if_pos (by omega), List.getElem?_eq_getElem hl2, show start + (j - start) = j by omega, j3] at g2
      have := h4 _ hj'
      simp only [Option.some.injEq] at g2
      simp [g2] at this
  · rintro ⟨⟨a1, a2, a3⟩, a4⟩
    refine ⟨k - start, ?_, by omega⟩
    rw [List.findIdx?_eq_some_iff_getElem]
    have hl : k - start < ((l.take stop).drop start).length := by simp; omega
    refine ⟨hl, ?_, ?_⟩
    · have g := get (k - start)
      rw [if_pos (by omega), List.getElem?_eq_getElem hl, show start + (k - start) = k by omega, a3] at g
      simpa using g
    · intro j hj
      have g := get j
      have hl2 : j < ((l.take stop).drop start).length := by omega
      have a5 := a4 (start + j) (by omega)
      rw [if_pos (by omega), List.getElem?_eq_getElem hl2] at g
      rw [← g] at a5
      simp only [Option.some.injEq] at a5
      have : start + j < stop := by omega
      simp [this] at a5 ⊢
      exact a5

theorem firstAt_lt [DecidableEq α] {l : List α} {lo hi : Int} {v : α} {p : Nat} (h : Spec.firstAt l lo hi v = some p) :
    p < l.length ∧ lo ≤ p ∧ (p : Int) < hi ∧ l[p]? = some v := by
  unfold Spec.firstAt at h
  rw [List.find?_range_eq_some] at h
  simp only [decide_eq_true_eq, List.mem_range] at h
  exact ⟨h.2.1, h.1⟩

theorem remove_ok (K : Kind) (l : List Int) (v : Int) (hv : FitsS K.bits v) :
    Agrees (remove K l (.int v)) (Spec.step K.bits l (.remove (.int v))) := by
  have he := toElem_int hv
  simp only [remove, he, findFrom_eq l 0 l.length v (Nat.le_refl _), Spec.step, Spec.asInt?,
    Option.bind_some, Spec.removeFirst]
  cases h : Spec.firstAt l 0 l.length v with
  | none => simp [Agrees]
  | some p => simp [Agrees, RetIs, List.eraseIdx_eq_take_drop_succ]

theorem count_ok (K : Kind) (l : List Int) (v : Int) (hv : FitsS K.bits v) :
    Agrees (count K l (.int v)) (Spec.step K.bits l (.count (.int v))) := by
  have he := toElem_int hv
  simp only [count, he, Spec.step, Spec.asInt?, ite_self, Agrees, RetIs, Option.map_some, Option.getD_some,
    true_and]
  congr 1
  rw [List.count_eq_length_filter]
  congr 2

theorem contains_ok (K : Kind) (l : List Int) (a : Arg) (hv : ∀ v, a = .int v → FitsS K.bits v) :
    Agrees (contains K l a) (Spec.step K.bits l (.contains a)) := by
  cases a with
  | index v => simp [contains, Spec.step, Spec.asInt?, Agrees, RetIs]
  | other => simp [contains, Spec.step, Spec.asInt?, Agrees, RetIs]
  | int v =>
    have hv := hv v rfl
    have he := toElem_int hv
    simp only [contains, he, Spec.step, Spec.asInt?, Agrees, RetIs, Option.any_some, true_and,
      findFrom_eq l 0 l.length v (Nat.le_refl _)]
    by_cases hm : v ∈ l
    · obtain ⟨p, hp⟩ := List.mem_iff_getElem?.1 hm
      have hpl := (List.getElem?_eq_some_iff.1 hp).1
      have : (Spec.firstAt l (0 : Nat) l.length v).isSome := by
        unfold Spec.firstAt
        rw [List.find?_isSome]
        exact ⟨p, by simp [hpl], by simp [hp]; omega⟩
      simpa [hm] using this
    · cases h : Spec.firstAt l (0 : Nat) l.length v with
      | none => simp [hm]
      | some p => exact absurd (List.mem_of_getElem? (firstAt_lt h).2.2.2) hm

theorem word_field (a : Option Arg) (h : ∀ x, a = some x → x = .other ∨ ∃ v, Spec.word .overflowError x = .ok v) :
    (Spec.field a = .error .typeError ∧ ∃ x, a = some x ∧ parseN x = (-1, some .typeError)) ∨
    (a = none ∧ Spec.field a = .ok none) ∨
    (∃ x v, a = some x ∧ Spec.field a = .ok (some v) ∧ parseN x = (v, none)) := by
  cases a with
  | none => simp [Spec.field]
  | some x =>
    rcases h x rfl with rfl | ⟨v, hv⟩
    · left; simp [Spec.field, parseN, asLong]
    · right; right
      refine ⟨x, v, rfl, ?_, by rw [parseN_eq, hv]⟩
      cases x with
      | other => simp [Spec.word] at hv
      | int w | index w =>
        simp only [Spec.word] at hv
        split at hv
        · cases hv; rfl
        · cases hv

theorem index_ok (K : Kind) (l : List Int) (v : Int) (i j : Option Arg) (hv : FitsS K.bits v)
    (hi : ∀ x, i = some x → x = .other ∨ ∃ v, Spec.word .overflowError x = .ok v)
    (hj : ∀ x, j = some x → x = .other ∨ ∃ v, Spec.word .overflowError x = .ok v) :
    Agrees (index K l (.int v) i j) (Spec.step K.bits l (.index (.int v) i j)) := by
  have he : parseElem K (.int v) = (v, none) := by
    rw [parseElem_eq]
    simp [Spec.elem, show Spec.InRange K.bits v from hv]
  -- the body once start and stop are known
  have key : ∀ i j : Option Int, Agrees
      (let n : Int := l.length
       let start := i.getD 0
       let stop := j.getD n
       let start := if start < 0 then start + n else start
       let stop := if stop < 0 then stop + n else stop
       let start := if start < 0 then 0 else start
       let stop := if stop > n then n else stop
       if start > stop then .exc l .valueError
       else if stop < 0 then .ub .badIterator
       else
        match findFrom l start.toNat stop.toNat v with
        | none => .exc l .valueError
        | some k => .ok l (.int (canon k)))
      (match (Spec.asInt? (.int v)).bind (Spec.firstAt l ((i.map (Spec.clampUp l.length)).getD 0)
          ((j.map (Spec.clampUp l.length)).getD l.length)) with
        | none => (l, .error .valueError)
        | some p => (l, .ok (.int p))) := by
    intro i j
    simp only [Spec.asInt?, Option.bind_some]
    generalize hlo : (i.map (Spec.clampUp l.length)).getD 0 = lo
    generalize hhi : (j.map (Spec.clampUp l.length)).getD (l.length : Int) = hi
    generalize hs : (if (if i.getD 0 < 0 then i.getD 0 + (l.length : Int) else i.getD 0) < 0 then 0
      else (if i.getD 0 < 0 then i.getD 0 + (l.length : Int) else i.getD 0)) = start
    generalize hp : (if (if j.getD (l.length : Int) < 0 then j.getD (l.length : Int) + (l.length : Int)
      else j.getD (l.length : Int)) > (l.length : Int) then (l.length : Int)
      else (if j.getD (l.length : Int) < 0 then j.getD (l.length : Int) + (l.length : Int)
      else j.getD (l.length : Int))) = stop
    have e1 : lo = min start l.length := by
      subst hlo hs; cases i
      · simp only [Option.map_none, Option.getD_none]; omega
      · simp only [Option.map_some, Option.getD_some, Spec.clampUp, Spec.fromFront]; omega
    have e2 : hi = max 0 stop := by
      subst hhi hp; cases j
      · simp only [Option.map_none, Option.getD_none]; omega
      · simp only [Option.map_some, Option.getD_some, Spec.clampUp, Spec.fromFront]; omega
    have s0 : 0 ≤ start := by subst hs; split <;> omega
    have s1 : stop ≤ l.length := by subst hp; split <;> omega
    by_cases hgt : start > stop
    · rw [if_pos hgt]
      cases hf : Spec.firstAt l lo hi v with
      | none => simp [Agrees]
      | some p => have := firstAt_lt hf; omega
    · rw [if_neg hgt, if_neg (by omega), findFrom_eq _ _ _ _ (by omega)]
      have a1 : ((start.toNat : Nat) : Int) = lo := by omega
      have a2 : ((stop.toNat : Nat) : Int) = hi := by omega
      rw [a1, a2]
      cases hf : Spec.firstAt l lo hi v with
      | none => simp [Agrees]
      | some p => simp [Agrees, RetIs]
  simp only [index, he, Spec.step]
  rcases word_field i hi with ⟨h1, x, rfl, h2⟩ | ⟨rfl, h1⟩ | ⟨x, v1, rfl, h1, h2⟩
  · simp [h1, h2, Agrees]
  · rcases word_field j hj with ⟨h3, y, rfl, h4⟩ | ⟨rfl, h3⟩ | ⟨y, v2, rfl, h3, h4⟩
    · simp [h1, h3, h4, Agrees]
    · simp only [h1]; exact key none none
    · simp only [h1, h3, h4]; exact key none (some v2)
  · rcases word_field j hj with ⟨h3, y, rfl, h4⟩ | ⟨rfl, h3⟩ | ⟨y, v2, rfl, h3, h4⟩
    · simp [h1, h2, h3, h4, Agrees]
    · simp only [h1, h2, h3]; exact key (some v1) none
    · simp only [h1, h2, h3, h4]; exact key (some v1) (some v2)

/-! ### insert, pop, resize -/

theorem insert_ok (K : Kind) (l : List Int) (i a : Arg) :
    Agrees (insert K l i a) (Spec.step K.bits l (.insert i a)) := by
  simp only [insert, parseN_eq, parseElem_eq, Spec.step]
  cases Spec.word .overflowError i with
  | error e => simp [Agrees]
  | ok i =>
    cases Spec.elem K.bits a with
    | error e => simp [Agrees]
    | ok v =>
      simp only
      have e : (if i < 0 then max 0 ((l.length : Int) + i) else if i > l.length then (l.length : Int) else i) =
          Spec.clampUp l.length i := by
        unfold Spec.clampUp Spec.fromFront; omega
      rw [e]
      have h0 : 0 ≤ Spec.clampUp l.length i ∧ Spec.clampUp l.length i ≤ l.length := by
        unfold Spec.clampUp; omega
      rw [if_pos h0]
      simp [Agrees, RetIs]

theorem getLast?_position (l : List α) (d : α) :
    l.getLast? = (Spec.position l.length (-1)).map fun p => l.getD p d := by
  cases l with
  | nil => simp [Spec.position]
  | cons x xs =>
    have : Spec.position (x :: xs).length (-1) = some xs.length := by
      unfold Spec.position
      rw [if_neg (by omega), if_pos (by simp; omega)]
      simp
    rw [this]
    simp [List.getLast?_eq_getElem?]

theorem pop_eq (cfg : Cfg) (K : Kind) (l : List Int) (a : Option Arg) (ha : ∀ v, a ≠ some (.index v)) :
    pop cfg K l a = (if l = [] then .exc l .indexError else
      match (match a with | none => Except.ok (-1) | some a => Spec.word .overflowError a) with
      | .error e => .exc l e
      | .ok i => match Spec.position l.length i with
        | none => .exc l .indexError
        | some p => .ok (l.take p ++ l.drop (p + 1)) (.int (box K cfg.py (l.getD p 0)))) := by
  unfold pop
  by_cases hl : l = []
  · subst hl; simp
  · rw [if_neg hl]
    have hlast : l.getLast? = some (l.getLast hl) := List.getLast?_eq_some_getLast hl
    rw [hlast]
    simp only
    cases a with
    | none =>
      simp only
      have h := getLast?_position l 0
      rw [hlast] at h
      cases hp : Spec.position l.length (-1) with
      | none => rw [hp] at h; simp at h
      | some p =>
        rw [hp] at h
        simp only [Option.map_some, Option.some.injEq] at h
        rw [h]
        have hpp : p = l.length - 1 := by
          have hlen : 0 < l.length := List.length_pos_iff.2 hl
          unfold Spec.position at hp
          rw [if_neg (by omega), if_pos (by omega)] at hp
          cases hp; rfl
        simp only
        have : l.drop (p + 1) = [] := by
          apply List.drop_eq_nil_of_le; omega
        rw [this, hpp, List.dropLast_eq_take]
        simp
    | some a =>
      have hs : asSsize a = (match Spec.word .overflowError a with | .ok v => (v, none) | .error e => (-1, some e)) := by
        cases a with
        | index v => exact absurd rfl (ha v)
        | other => rfl
        | int v => exact parseN_eq (.int v)
      simp only [hs]
      cases Spec.word .overflowError a with
      | error e => rfl
      | ok i =>
        simp only
        rw [position_eq]
        simp only
        generalize (if i < 0 then i + (l.length : Int) else i) = j
        split
        · rfl
        · have hj : j.toNat < l.length := by omega
          simp [hj, List.eraseIdx_eq_take_drop_succ]

theorem resize_ok (K : Kind) (l : List Int) (a : Arg) :
    Agrees (resize l a) (Spec.step K.bits l (.resize a)) := by
  cases a with
  | index v => simp [resize, Spec.step, Agrees]
  | other => simp [resize, Spec.step, Agrees]
  | int v =>
    simp only [resize, asSsize, Spec.step]
    by_cases h : FitsS 64 v
    · simp only [h, if_true, show Spec.InRange 64 v from h, and_true]
      by_cases h0 : 0 ≤ v
      · rw [if_pos h0, if_neg (by omega)]; simp [Agrees, RetIs]
      · rw [if_neg h0, if_pos (by omega)]; simp [Agrees]
    · have h' : ¬ Spec.InRange 64 v := h
      simp [h, h', Agrees]

/-! ### slice read -/

theorem sliceLoop_eq (l : List α) (d : α) (start step : Int) (n i : Nat)
    (h : ∀ t : Nat, t < n → 0 ≤ start + (i + t : Nat) * step ∧ start + (i + t : Nat) * step < l.length) :
    sliceLoop l start step n i =
      .ok ((List.range n).map fun t => l.getD (start + (i + t : Nat) * step).toNat d) := by
  induction n generalizing i with
  | zero => rfl
  | succ n ih =>
    have h0 := h 0 (by omega)
    simp only [Nat.add_zero] at h0
    rw [sliceLoop]
    rw [if_neg (by omega)]
    have hlt : (start + (i : Nat) * step).toNat < l.length := by omega
    have hget : l[(start + (i : Nat) * step).toNat]? = some (l.getD (start + (i : Nat) * step).toNat d) := by
      simp [hlt]
    rw [hget]
    simp only []
    rw [ih (i + 1)]
    · simp only [List.range_succ_eq_map, List.map_cons, List.map_map, Nat.add_zero]
      congr 2
      apply List.map_congr_left
      intro t _
      simp only [Function.comp]
      rw [show i + 1 + t = i + (t + 1) by omega]
    · intro t ht
      have := h (t + 1) (by omega)
      rw [show i + (t + 1) = i + 1 + t by omega] at this
      exact this

theorem pick_eq_map (l : List α) (d : α) (ps : List Nat) (h : ∀ p ∈ ps, p < l.length) :
    Spec.pick l ps = ps.map fun p => l.getD p d := by
  unfold Spec.pick
  induction ps with
  | nil => rfl
  | cons p ps ih =>
    have hp := h p (by simp)
    rw [List.filterMap_cons, List.getElem?_eq_getElem hp, List.map_cons, ih (fun q hq => h q (by simp [hq]))]
    simp [hp]

theorem pick_map (l : List α) (d : α) (f : Nat → Nat) (n : Nat) (h : ∀ t < n, f t < l.length) :
    Spec.pick l ((List.range n).map f) = (List.range n).map fun t => l.getD (f t) d := by
  rw [pick_eq_map, List.map_map]
  · rfl
  · intro p hp
    obtain ⟨t, ht, rfl⟩ := List.mem_map.1 hp
    exact h t (List.mem_range.1 ht)

theorem slice_read (cfg : Cfg) (K : Kind) (l : List Int) (s : SliceArg) (hn : (l.length : Int) ≤ ssizeMax) :
    subscript cfg K l (.slice s) = (match Spec.fields s with
      | .error e => .exc l e
      | .ok (i, j, k) => .ok l (.pylist ((Spec.pick l (Spec.positions l.length i j k)).map (box K cfg.py)))) := by
  simp only [subscript]
  obtain ⟨h1, h2⟩ := sliceUnpack_fields s
  rw [h1]
  cases hf : Spec.fields s with
  | error e => rfl
  | ok f =>
    obtain ⟨i, j, k⟩ := f
    simp only
    generalize ha : adjustIndices _ _ _ _ = adj
    obtain ⟨start, stop, cnt⟩ := adj
    obtain ⟨p1, p2, -⟩ := adjust_positions hn (h2 i j k hf) ha
    simp only
    rw [sliceLoop_eq l 0]
    · simp only
      rw [p1, pick_map l 0]
      · simp
      · intro t ht
        have := p2 t (by omega)
        omega
    · intro t ht
      have := p2 t (by omega)
      simpa using this

/-! ### slice assignment -/

theorem assignLoop_eq (cfg : Cfg) (K : Kind) (s : Src) (vs : List Int)
    (hget : ∀ cur i, srcItem cfg K cur s i = vs[i]?.map fun v => (v, none))
    (start n i : Nat) (cur : List Int) (h1 : i + n ≤ vs.length) (h2 : start + i + n ≤ cur.length) :
    assignLoop cfg K s start n i cur =
      .ok (cur.take (start + i) ++ (vs.drop i).take n ++ cur.drop (start + i + n)) .none := by
  induction n generalizing i cur with
  | zero => simp [assignLoop]
  | succ n ih =>
    have hi : i < vs.length := by omega
    rw [assignLoop, hget, List.getElem?_eq_getElem hi]
    simp only [Option.map_some]
    rw [if_pos (by omega), ih (i + 1) _ (by omega) (by simp; omega)]
    congr 1
    rw [List.set_eq_take_append_cons_drop, if_pos (by omega), List.drop_eq_getElem_cons hi]
    simp only [List.take_succ_cons]
    have e1 : (cur.take (start + i)).length = start + i := by simp; omega
    rw [show start + (i + 1) = start + i + 1 by omega]
    rw [List.take_append, e1, List.take_of_length_le (by omega), Nat.add_sub_cancel_left]
    rw [List.drop_append, e1, List.drop_eq_nil_of_le (as := cur.take (start + i)) (by omega)]
    rw [show start + i + 1 + n - (start + i) = n + 1 by omega]
    simp
    congr 1; omega

theorem insertLoop_eq (cfg : Cfg) (K : Kind) (s : Src) (vs : List Int)
    (hget : ∀ cur i, srcItem cfg K cur s i = vs[i]?.map fun v => (v, none))
    (start n i : Nat) (cur : List Int) (h1 : i + n ≤ vs.length) (h2 : start + i ≤ cur.length) :
    insertLoop cfg K s start n i cur =
      .ok (cur.take (start + i) ++ (vs.drop i).take n ++ cur.drop (start + i)) .none := by
  induction n generalizing i cur with
  | zero => simp [insertLoop]
  | succ n ih =>
    have hi : i < vs.length := by omega
    rw [insertLoop, hget, List.getElem?_eq_getElem hi]
    simp only [Option.map_some]
    rw [if_pos (by omega), ih (i + 1) _ (by omega) (by simp; omega)]
    congr 1
    rw [List.drop_eq_getElem_cons hi]
    simp only [List.take_succ_cons]
    have e1 : (cur.take (start + i)).length = start + i := by simp; omega
    rw [show start + (i + 1) = start + i + 1 by omega]
    rw [List.take_append, e1, List.take_of_length_le (by omega), Nat.add_sub_cancel_left]
    rw [List.drop_append, e1, List.drop_eq_nil_of_le (as := cur.take (start + i)) (by omega)]
    rw [show start + i + 1 - (start + i) = 1 by omega]
    simp

theorem splice_core (cfg : Cfg) (K : Kind) (s : Src) (l vs : List Int)
    (hget : ∀ cur i, srcItem cfg K cur s i = vs[i]?.map fun v => (v, none))
    (lo hi n : Nat) (hlo : lo ≤ l.length) (hhi : hi ≤ l.length) (hn : n = hi - lo) :
    (if (vs.length : Int) = n then assignLoop cfg K s lo n 0 l
          else if (vs.length : Int) < n then
            match assignLoop cfg K s lo vs.length 0 l with
            | .ok l' _ =>
              if 0 ≤ (lo : Int) + vs.length ∧ (lo : Int) + vs.length ≤ hi ∧ (hi : Int) ≤ l'.length then
                let l'' := l'.take ((lo : Int) + vs.length).toNat ++ l'.drop hi
                if (vs.length : Int) < 0 then .pending l'' .none .typeError else .ok l'' .none
              else .ub .badIterator
            | o => o
          else
            match assignLoop cfg K s lo n 0 l with
            | .ok l' _ => insertLoop cfg K s lo ((vs.length : Int) - n).toNat n l'
            | o => o) = Out.ok (l.take lo ++ vs ++ l.drop (max lo hi)) .none := by
  split
  · next h =>
    have h : vs.length = n := by omega
    rw [assignLoop_eq cfg K s vs hget _ _ _ _ (by omega) (by omega)]
    simp only [Nat.add_zero, List.drop_zero]
    rw [List.take_of_length_le (l := vs) (by omega), show max lo hi = lo + n by omega]
  · split
    · rw [assignLoop_eq cfg K s vs hget _ _ _ _ (by omega) (by omega)]
      simp only [Nat.add_zero, List.drop_zero, List.take_length]
      have e : (l.take lo).length = lo := by simp; omega
      have e2 : (l.take lo ++ vs ++ l.drop (lo + vs.length)).length = l.length := by simp; omega
      rw [if_pos (by rw [e2]; omega), if_neg (by omega)]
      congr 1
      rw [show ((lo : Int) + vs.length).toNat = lo + vs.length by omega]
      have t1 : (l.take lo ++ vs ++ l.drop (lo + vs.length)).take (lo + vs.length) = l.take lo ++ vs := by
        rw [List.take_append, List.take_of_length_le (by simp; omega)]
        have : lo + vs.length - (l.take lo ++ vs).length = 0 := by simp; omega
        rw [this]; simp
      rw [t1]
      congr 1
      rw [List.drop_append, List.drop_eq_nil_of_le (as := l.take lo ++ vs) (by simp; omega), List.drop_drop]
      simp only [List.nil_append]
      congr 1
      simp; omega
    · rw [assignLoop_eq cfg K s vs hget _ _ _ _ (by omega) (by omega)]
      simp only [Nat.add_zero, List.drop_zero]
      rw [insertLoop_eq cfg K s vs hget _ _ _ _ (by omega) (by simp; omega)]
      congr 1
      have e : (l.take lo ++ vs.take n).length = lo + n := by simp; omega
      rw [List.take_append, List.take_of_length_le (l := l.take lo ++ vs.take n) (by omega), e, Nat.sub_self,
        List.drop_append, List.drop_eq_nil_of_le (as := l.take lo ++ vs.take n) (by omega), e, Nat.sub_self]
      simp only [List.take_zero, List.append_nil, List.drop_zero, List.nil_append]
      rw [List.take_of_length_le (l := vs.drop n) (by simp), show max lo hi = lo + n by omega]
      rw [List.append_assoc, List.append_assoc, List.append_assoc, ← List.append_assoc (vs.take n),
        List.take_append_drop]

theorem rebox_eq (cfg : Cfg) (K : Kind) {v : Int} (hv : FitsS K.bits v)
    (h : K = .i64 ∨ cfg.py = .le311 ∨ 0 ≤ v) : rebox K cfg.py v = (v, none) := by
  have hval : (box K cfg.py v).value = v := by
    unfold box
    cases K with
    | i64 => exact canon_value v
    | i32 =>
      simp only [reduceCtorEq, false_or] at h
      unfold fromInt
      cases hpy : cfg.py with
      | le311 => exact canon_value v
      | v312 | ge313 =>
        simp only [hpy, reduceCtorEq, false_or] at h
        simp only [Kind.bits, fits32] at hv
        simp only [PyLong.value, digitsVal]
        rw [if_neg (by omega)]
        omega
  unfold rebox
  simp only [hval, K.fits64_of hv, if_true, wrapS_of_fits K hv]

theorem toElem_isElem {K : Kind} {a : Arg} (h : Spec.IsElem K.bits a = true) :
    toElem K a = (Spec.argVal a, none) := by
  cases a with
  | other => simp [Spec.IsElem] at h
  | int v | index v =>
    simp only [Spec.IsElem, decide_eq_true_eq] at h
    have h64 : FitsS 64 v := K.fits64_of h
    simp [toElem, asLong, h64, Spec.argVal, wrapS_of_fits K h]

theorem srcGood_vals {cfg : Cfg} {K : Kind} {s : Src} (h : SrcGood cfg K s) (l : List Int) :
    ∃ vs xs, (∀ cur i, srcItem cfg K cur s i = vs[i]?.map fun v => (v, none)) ∧
      srcSize l s = vs.length ∧ s.isSequence = true ∧ Spec.items l s = .ok (xs, none) ∧
      Spec.allElems K.bits xs = .ok vs ∧ AllFits K vs := by
  have key : ∀ xs : List Arg, (∀ a ∈ xs, Spec.IsElem K.bits a = true) →
      Spec.allElems K.bits xs = .ok (xs.map Spec.argVal) ∧ AllFits K (xs.map Spec.argVal) ∧
      ∀ i : Nat, xs[i]?.map (toElem K) = (xs.map Spec.argVal)[i]?.map fun v => (v, none) := by
    intro xs hx
    refine ⟨?_, ?_, ?_⟩
    · unfold Spec.allElems Spec.firstBad
      have : xs.find? (fun a => !Spec.IsElem K.bits a) = none := by
        rw [List.find?_eq_none]; intro a ha; simp [hx a ha]
      rw [this]
    · intro v hv
      obtain ⟨a, ha, rfl⟩ := List.mem_map.1 hv
      have := hx a ha
      cases a <;> simp [Spec.IsElem, Spec.argVal] at this ⊢ <;> exact this
    · intro i
      rw [List.getElem?_map, Option.map_map]
      cases hg : xs[i]? with
      | none => rfl
      | some a => simp [toElem_isElem (hx a (List.mem_of_getElem? hg))]
  cases s with
  | same v =>
    obtain ⟨h1, h2⟩ := h
    obtain ⟨k1, k2, -⟩ := key (v.map Arg.int) (by
      intro a ha; obtain ⟨x, hx, rfl⟩ := List.mem_map.1 ha
      simp only [Spec.IsElem, decide_eq_true_eq]; exact h1 x hx)
    have e : (v.map Arg.int).map Spec.argVal = v := by
      rw [List.map_map]; exact List.map_id v
    rw [e] at k1 k2
    refine ⟨v, v.map Arg.int, ?_, rfl, rfl, rfl, k1, h1⟩
    intro cur i
    simp only [srcItem]
    cases hg : v[i]? with
    | none => rfl
    | some x =>
      have hx := List.mem_of_getElem? hg
      simp only [Option.map_some]
      rw [rebox_eq cfg K (h1 x hx)]
      rcases h2 with h2 | h2 | h2
      · exact .inl h2
      · exact .inr (.inl h2)
      · exact .inr (.inr (h2 x hx))
  | list xs =>
    obtain ⟨k1, k2, k3⟩ := key xs h
    exact ⟨_, xs, fun _ i => k3 i, by simp [srcSize], rfl, rfl, k1, k2⟩
  | tuple xs =>
    obtain ⟨k1, k2, k3⟩ := key xs h
    exact ⟨_, xs, fun _ i => k3 i, by simp [srcSize], rfl, rfl, k1, k2⟩
  | seq xs =>
    obtain ⟨k1, k2, k3⟩ := key xs h
    exact ⟨_, xs, fun _ i => k3 i, by simp [srcSize], rfl, rfl, k1, k2⟩
  | self => exact absurd h id
  | seqNoLen => exact absurd h id
  | iter => exact absurd h id
  | notIterable => exact absurd h id

theorem set_slice_ok (cfg : Cfg) (K : Kind) (l : List Int) (s : SliceArg) (src : Src)
    (hn : (l.length : Int) ≤ ssizeMax)
    (hsrc : src = .notIterable ∨ (SrcGood cfg K src ∧ ∀ i j k, Spec.fields s = .ok (i, j, k) → k = 1)) :
    Agrees (assSubscript cfg K l (.slice s) (some (.inr src))) (Spec.step K.bits l (.set (.slice s) (.inr src))) := by
  simp only [assSubscript, Spec.step]
  obtain ⟨h1, h2⟩ := sliceUnpack_fields s
  rw [h1]
  cases hf : Spec.fields s with
  | error e => simp [Agrees]
  | ok f =>
    obtain ⟨i, j, k⟩ := f
    simp only
    generalize ha : adjustIndices _ _ _ _ = adj
    obtain ⟨start, stop, cnt⟩ := adj
    obtain ⟨p1, p2, p3⟩ := adjust_positions hn (h2 i j k hf) ha
    simp only
    rcases hsrc with rfl | ⟨hg, hk⟩
    · simp [Src.isSequence, Spec.items, Agrees]
    obtain rfl := hk i j k hf
    obtain ⟨vs, xs, hget, hsz, hseq, hit, hall, -⟩ := srcGood_vals hg l
    obtain ⟨q1, q2⟩ := p3 (by decide)
    have hc1 : (if clampSsize 1 < -ssizeMax then -ssizeMax else clampSsize 1) = 1 := by decide
    rw [hc1]
    have b1 : 0 ≤ start ∧ start ≤ l.length := by
      rw [q1]; cases i
      · simp
      · simp only [Option.map_some, Option.getD_some, Spec.clampUp]; omega
    have b2 : 0 ≤ stop ∧ stop ≤ l.length := by
      rw [q2]; cases j
      · simp
      · simp only [Option.map_some, Option.getD_some, Spec.clampUp]; omega
    have hcn : cnt = ((stop.toNat - start.toNat : Nat) : Int) := by
      rw [hc1] at ha
      have h1 := congrArg (fun x => x.1) ha
      have h2 := congrArg (fun x => x.2.1) ha
      have h3 := congrArg (fun x => x.2.2) ha
      simp only [adjustIndices, show ¬ ((1:Int) < 0) by decide, if_false] at h1 h2 h3
      rw [h1, h2, Int.ediv_one] at h3
      omega
    simp only [hseq, hit, hall, hsz, Bool.not_true, Bool.false_eq_true, if_false, ne_eq, not_true_eq_false, if_true]
    have core := splice_core cfg K src l vs hget start.toNat stop.toNat _ (by omega) (by omega) rfl
    have es : ((start.toNat : Nat) : Int) = start := by omega
    have ep : ((stop.toNat : Nat) : Int) = stop := by omega
    rw [← hcn, es, ep] at core
    have ecn : stop.toNat - start.toNat = cnt.toNat := by omega
    rw [ecn] at core
    have evs : ((vs.length : Nat) : Int).toNat = vs.length := by simp
    rw [evs]
    refine Eq.mpr (congrArg (fun o => Agrees o (Spec.spliceAt l i j vs, Except.ok Spec.Val.none)) core) ?_
    simp only [Spec.spliceAt, ← q1, ← q2, Agrees, RetIs, and_true]

/-! ### `*`, `*=` -/

theorem kind_size_dvd (K : Kind) : K.size ∣ 16 := by cases K <;> decide

theorem flatten_replicate_length (l : List α) (n : Nat) :
    ((List.replicate n l).flatten).length = l.length * n := by
  induction n with
  | zero => simp
  | succ n ih => rw [List.replicate_succ, List.flatten_cons, List.length_append, ih, Nat.mul_succ]; omega

theorem flatten_replicate_succ (l : List α) (n : Nat) :
    (List.replicate (n + 1) l).flatten = (List.replicate n l).flatten ++ l := by
  rw [List.replicate_succ']; simp

theorem mulLoop_ok (cfg : Cfg) (K : Kind) (l : List Int) (k i : Nat)
    (hal : ∀ t, i ≤ t → t < i + k → CopyAligned cfg K.size (l.length * t * K.size) l.length) :
    mulLoop cfg K l k i ((List.replicate i l).flatten ++ List.replicate (l.length * k) 0) =
      .ok (List.replicate (i + k) l).flatten := by
  induction k generalizing i with
  | zero => simp [mulLoop]
  | succ k ih =>
    have e1 := flatten_replicate_length l i
    rw [mulLoop, simdMemCpy_eq cfg true (kind_size_dvd K) (Nat.le_refl _)
      (by rw [List.length_append, e1, List.length_replicate, Nat.mul_succ]; omega) (by simp),
      if_neg (by simp [hal i (Nat.le_refl _) (by omega)])]
    simp only
    have e2 : writeAt ((List.replicate i l).flatten ++ List.replicate (l.length * (k + 1)) 0) (l.length * i)
        (l.take l.length) = (List.replicate (i + 1) l).flatten ++ List.replicate (l.length * k) 0 := by
      rw [flatten_replicate_succ, List.take_length]
      unfold writeAt
      rw [List.take_left' e1, Nat.mul_succ, List.append_assoc, List.append_assoc]
      congr 2
      rw [List.drop_append, List.drop_eq_nil_of_le (by omega), List.nil_append, List.drop_replicate]
      congr 1; omega
    rw [e2, ih (i + 1) (fun t h1 h2 => hal t (by omega) (by omega))]
    rw [show i + 1 + k = i + (k + 1) by omega]

theorem mulLoop_fault (cfg : Cfg) (K : Kind) (l dst : List Int) (k i t : Nat)
    (hd : l.length * (i + k) ≤ dst.length) (h1 : i ≤ t) (h2 : t < i + k)
    (hal : ¬ CopyAligned cfg K.size (l.length * t * K.size) l.length) :
    mulLoop cfg K l k i dst = .error .misaligned := by
  induction k generalizing i dst with
  | zero => omega
  | succ k ih =>
    have hle : l.length * i + l.length ≤ dst.length := by
      have : l.length * (i + 1) ≤ l.length * (i + (k + 1)) := Nat.mul_le_mul_left _ (by omega)
      rw [Nat.mul_succ] at this; omega
    rw [mulLoop, simdMemCpy_eq cfg true (kind_size_dvd K) (Nat.le_refl _) hle (by simp)]
    by_cases hi : CopyAligned cfg K.size (l.length * i * K.size) l.length
    · rw [if_neg (by simp [hi])]
      have : i ≠ t := by rintro rfl; exact hal hi
      refine ih _ (i + 1) ?_ (by omega) (by omega)
      rw [writeAt_length (by simp; omega)]
      rw [show i + 1 + k = i + (k + 1) by omega]; exact hd
    · rw [if_pos ⟨rfl, hi⟩]

/-- `*` builds the copies exactly if every destination is aligned for the vector stores used. -/
theorem mul_eq (cfg : Cfg) (K : Kind) (l : List Int) (n : Int) :
    ((∀ t, t < n.toNat → CopyAligned cfg K.size (l.length * t * K.size) l.length) →
      mul cfg K l n = .ok l (.newList (Spec.copies l n))) ∧
    ((∃ t, t < n.toNat ∧ ¬ CopyAligned cfg K.size (l.length * t * K.size) l.length) →
      mul cfg K l n = .ub .misaligned) := by
  by_cases h0 : n ≤ 0
  · have e : n.toNat = 0 := by omega
    have e2 : (if n < 0 then 0 else n) = 0 := by split <;> omega
    constructor
    · intro _; simp [mul, e2, Spec.copies, e]
    · rintro ⟨t, ht, -⟩; omega
  · have e2 : (if n < 0 then 0 else n) = n := by split <;> omega
    constructor
    · intro h
      unfold mul
      simp only [e2]
      rw [if_neg (by omega)]
      have := mulLoop_ok cfg K l n.toNat 0 (fun t _ h2 => h t (by omega))
      simp only [List.replicate_zero, List.flatten_nil, List.nil_append, Nat.zero_add] at this
      rw [this]; rfl
    · rintro ⟨t, ht, ha⟩
      unfold mul
      simp only [e2]
      rw [if_neg (by omega), mulLoop_fault cfg K l _ n.toNat 0 t (by simp) (by omega) (by omega) ha]

theorem imul_small (cfg : Cfg) (K : Kind) (l : List Int) (n : Int) (h : n ≤ 1) :
    imul cfg K l n = .ok (Spec.copies l n) .self := by
  unfold imul Spec.copies
  by_cases h0 : n ≤ 0
  · have e2 : (if n < 0 then 0 else n) = 0 := by split <;> omega
    simp only [e2, if_true, show n.toNat = 0 by omega, List.replicate_zero, List.flatten_nil]
  · obtain rfl : n = 1 := by omega
    simp [imulLoop]

theorem imulLoop_nil (cfg : Cfg) (K : Kind) (k i : Nat) : imulLoop cfg K 0 k i [] = .ok [] := by
  induction k generalizing i with
  | zero => rfl
  | succ k ih =>
    rw [imulLoop]
    simp only [Nat.zero_mul, List.take_nil]
    rw [simdMemCpy_eq (src := ([] : List Int)) (dst := []) (off := 0) (count := 0) (fa := 0) (ta := 0) cfg true
      (kind_size_dvd K) (by simp) (by simp) (by simp)]
    rw [if_neg (by simp [CopyAligned])]
    simpa [writeAt] using ih (i + 1)

theorem imul_nil (cfg : Cfg) (K : Kind) (n : Int) : imul cfg K [] n = .ok (Spec.copies [] n) .self := by
  unfold imul Spec.copies
  simp only [List.length_nil, Nat.zero_mul, Nat.sub_self, List.replicate_zero, List.append_nil, imulLoop_nil]
  have : (List.replicate n.toNat ([] : List Int)).flatten = [] := by simp
  rw [this]
  simp only [ite_self]

theorem imulLoop_bounds (cfg : Cfg) (K : Kind) (size k i : Nat) (v r : List Int) (h0 : 0 < size)
    (hv : size ≤ v.length) (hk : 0 < k) (hok : imulLoop cfg K size k i v = .ok r) :
    size * K.size * (i + k - 1) + size ≤ v.length := by
  induction k generalizing i v with
  | zero => omega
  | succ k ih =>
    rw [imulLoop] at hok
    split at hok
    · cases hok
    · next v' hc =>
      have hb := (simdMemCpy_inside hc).resolve_left (by omega)
      have hl := simdMemCpy_length (kind_size_dvd K) (by simp; omega) (by simp) hc h0
      cases k with
      | zero => simpa using hb
      | succ k =>
        have := ih (i + 1) v' (by omega) (by omega) hok
        rw [show i + 1 + (k + 1) - 1 = i + (k + 1 + 1) - 1 by omega] at this
        omega

/-- `*=` with a count of two or more on a non-empty list always runs into undefined behaviour. -/
theorem imul_ub (cfg : Cfg) (K : Kind) (l : List Int) (n : Int) (hn : 2 ≤ n) (hl : l ≠ []) :
    ∃ u, imul cfg K l n = .ub u := by
  have h0 : 0 < l.length := List.length_pos_iff.2 hl
  unfold imul
  have e2 : (if n < 0 then 0 else n) = n := by split <;> omega
  simp only [e2]
  rw [if_neg (by omega)]
  split
  · next u _ => exact ⟨u, rfl⟩
  · next r hr =>
    exfalso
    have hb := imulLoop_bounds cfg K l.length (n.toNat - 1) 1 _ r h0 (by simp) (by omega) hr
    simp only [List.length_append, List.length_replicate] at hb
    have e : 1 + (n.toNat - 1) - 1 = n.toNat - 1 := by omega
    rw [e] at hb
    obtain ⟨m, hm⟩ : ∃ m, n.toNat = m + 2 := ⟨n.toNat - 2, by omega⟩
    rw [hm] at hb
    have hs : 4 ≤ K.size := by cases K <;> decide
    have h1 : l.length * 4 * (m + 1) ≤ l.length * K.size * (m + 2 - 1) :=
      Nat.mul_le_mul_right _ (Nat.mul_le_mul_left _ hs)
    have e3 : l.length * 4 * (m + 1) = 4 * (l.length * m) + 4 * l.length := by
      rw [Nat.mul_comm l.length 4, Nat.mul_assoc, Nat.mul_succ]; omega
    have e4 : l.length * (m + 2) = l.length * m + 2 * l.length := by rw [Nat.mul_add]; omega
    rw [e3] at h1
    rw [e4] at hb
    omega

/-! ### `reverse` -/

theorem loadU_congr {m m' : Bytes Nat} {p q w : Nat} (h : ∀ b, b < w → m (p + b) = m' (q + b)) :
    loadU m p w = loadU m' q w := by
  induction w generalizing p q with
  | zero => rfl
  | succ w ih =>
    rw [loadU, loadU, show m p = m' q from h 0 (by omega),
      ih (p := p + 1) (q := q + 1) (fun b hb => by
        have := h (b + 1) (by omega)
        rw [show p + 1 + b = p + (b + 1) by omega, show q + 1 + b = q + (b + 1) by omega]; exact this)]

theorem loadU_digits (m : Bytes Nat) (p w x : Nat) (h : ∀ b, b < w → m (p + b) = x / 256 ^ b % 256) :
    loadU m p w = x % 256 ^ w := by
  induction w generalizing p x with
  | zero => simp [loadU, Nat.mod_one]
  | succ w ih =>
    rw [loadU, ih (p + 1) (x / 256) (fun b hb => by
      rw [show p + 1 + b = p + (b + 1) by omega, h (b + 1) (by omega), Nat.pow_succ, Nat.div_div_eq_div_mul,
        Nat.mul_comm 256])]
    have := h 0 (by omega)
    simp only [Nat.add_zero, Nat.pow_zero, Nat.div_one] at this
    rw [this, Nat.pow_succ, Nat.mul_comm (256 ^ w) 256, Nat.mod_mul]

theorem load_toBytes (K : Kind) (l : List Int) (i : Nat) (hi : i < l.length) (hf : AllFits K l) :
    wrapS K.bits (loadU (toBytes K l) (i * K.size) K.size) = l[i] := by
  have hsz : 0 < K.size := by cases K <;> decide
  have hp : (256 : Nat) ^ K.size = 2 ^ K.bits := by cases K <;> decide
  rw [loadU_digits _ _ _ (l[i] % 2 ^ K.bits).toNat]
  · rw [hp]
    have hm : 0 ≤ l[i] % 2 ^ K.bits := by cases K <;> simp only [Kind.bits] <;> omega
    have hlt : (l[i] % 2 ^ K.bits).toNat < 2 ^ K.bits := by cases K <;> simp only [Kind.bits] at * <;> omega
    rw [Nat.mod_eq_of_lt hlt]
    have hfi := hf _ (List.getElem_mem hi)
    rw [show (((l[i] % 2 ^ K.bits).toNat : Nat) : Int) = l[i] % 2 ^ K.bits by omega]
    have hw := wrapS_of_fits K hfi
    unfold wrapS at hw ⊢
    have e := Int.emod_bmod (x := l[i]) (n := 2 ^ K.bits)
    rw [← hw]
    rw [hw]
    exact (by simpa using e : _ = l[i].bmod (2 ^ K.bits)).trans hw
  · intro b hb
    unfold toBytes
    rw [show (i * K.size + b) / K.size = i by
      rw [Nat.mul_comm, Nat.mul_add_div hsz, Nat.div_eq_of_lt hb, Nat.add_zero],
      show (i * K.size + b) % K.size = b by rw [Nat.mul_comm, Nat.mul_add_mod, Nat.mod_eq_of_lt hb]]
    rw [List.getD_eq_getElem?_getD, List.getElem?_eq_getElem hi]
    rfl

theorem reverse_eq (cfg : Cfg) (K : Kind) (l : List Int) (hf : AllFits K l) :
    reverse cfg K l = .ok l.reverse .none := by
  have hq : ∃ m', qReverse cfg K.size l.length (toBytes K l) = some m' ∧
      Spec.Reversed K.size l.length (toBytes K l) m' := by
    cases K
    · exact qReverse4_ok cfg l.length _
    · exact qReverse8_ok cfg l.length _
  obtain ⟨m', h1, h2, -⟩ := hq
  unfold reverse
  rw [h1]
  simp only [Out.ok.injEq, and_true]
  refine List.ext_getElem (by simp [ofBytes]) ?_
  intro i hi1 hi2
  have hi : i < l.length := by simpa [ofBytes] using hi1
  rw [List.getElem_reverse]
  rw [← load_toBytes K l (l.length - 1 - i) (by omega) hf]
  simp only [ofBytes, List.getElem_map, List.getElem_range]
  congr 2
  exact loadU_congr (fun b hb => h2 i b hi hb)

/-! ### Comparison -/

theorem ordLoop_vals (op : CmpOp) (hop : op = .lt ∨ op = .le ∨ op = .gt ∨ op = .ge) (l v : List Int) :
    (match ordLoop op l (v.map fun y => (y, none)) none with
      | (some b, p) => (b, p)
      | (none, p) => (op.rel l.length v.length, p)) = (Spec.compare op l v, none) := by
  induction l generalizing v with
  | nil =>
    cases v with
    | nil => rcases hop with rfl | rfl | rfl | rfl <;> rfl
    | cons y ys =>
      rcases hop with rfl | rfl | rfl | rfl <;>
        simp [ordLoop, CmpOp.rel, Spec.compare, Spec.lexLt] <;> omega
  | cons x xs ih =>
    cases v with
    | nil => rcases hop with rfl | rfl | rfl | rfl <;>
        simp [ordLoop, CmpOp.rel, Spec.compare, Spec.lexLt] <;> omega
    | cons y ys =>
      simp only [List.map_cons, ordLoop]
      by_cases hxy : x = y
      · subst hxy
        have := ih ys
        simp only [ne_eq, not_true_eq_false, if_false, Option.or_none]
        have hc : Spec.compare op (x :: xs) (x :: ys) = Spec.compare op xs ys := by
          rcases hop with rfl | rfl | rfl | rfl <;> simp [Spec.compare, Spec.lexLt]
        have hr : op.rel (x :: xs).length (x :: ys).length = op.rel xs.length ys.length := by
          rcases hop with rfl | rfl | rfl | rfl <;> simp [CmpOp.rel]
        rw [hc, hr]; exact this
      · simp only [ne_eq, hxy, not_false_eq_true, if_true, Option.or_none]
        rcases hop with rfl | rfl | rfl | rfl <;>
          simp only [CmpOp.rel, Spec.compare, Spec.lexLt, List.cons.injEq, hxy, false_and, decide_false,
            Bool.or_false, Prod.mk.injEq, and_true] <;>
          (rcases Int.lt_trichotomy x y with h | h | h <;> simp [h] <;> omega)

theorem ord_ints (K : Kind) (op : CmpOp) (hop : op = .lt ∨ op = .le ∨ op = .gt ∨ op = .ge) (l v : List Int)
    {s : Src} {ys : List CRes} (hys : ys = v.map fun y => (y, none))
    (hs : ord K op l s = (match ordLoop op l ys none with
      | (some b, p) => (b, p)
      | (none, p) => (op.rel l.length ys.length, p))) : ord K op l s = (Spec.compare op l v, none) := by
  rw [hs, hys, List.length_map]; exact ordLoop_vals op hop l v

theorem eqLoop_vals (l v : List Int) (h : v.length = l.length) :
    eqLoop l (v.map fun y => (y, none)) = (decide (l = v), none) := by
  induction l generalizing v with
  | nil => cases v with
    | nil => rfl
    | cons => simp at h
  | cons x xs ih =>
    cases v with
    | nil => simp at h
    | cons y ys =>
      simp only [List.map_cons, eqLoop]
      by_cases hxy : x = y
      · subst hxy; simp [ih ys (by simpa using h)]
      · simp [hxy]

theorem map_toElem_ints {K : Kind} {xs : List Arg}
    (h : ∀ a ∈ xs, (match a with | .int v => decide (FitsS K.bits v) | _ => false) = true) :
    xs.map (toElem K) = (xs.map Spec.argVal).map (fun y => (y, none)) ∧
      Spec.allInts xs = some (xs.map Spec.argVal) := by
  induction xs with
  | nil => exact ⟨rfl, rfl⟩
  | cons a as ih =>
    obtain ⟨h1, h2⟩ := ih (fun x hx => h x (List.mem_cons_of_mem _ hx))
    have ha := h a (List.mem_cons_self ..)
    cases a with
    | int v =>
      simp only [decide_eq_true_eq] at ha
      constructor
      · rw [List.map_cons, h1, toElem_isElem (by simpa [Spec.IsElem] using (show Spec.InRange K.bits v from ha))]
        rfl
      · unfold Spec.allInts at h2 ⊢
        rw [List.mapM_cons, h2]; rfl
    | index => simp at ha
    | other => simp at ha

theorem compare_ints (K : Kind) (op : CmpOp) (l v : List Int) (s : Src) (hs : SrcInts K l s = some v) :
    Agrees (compare K op l s) (Spec.step K.bits l (.cmp op s)) := by
  have hord : ∀ op : CmpOp, op = .lt ∨ op = .le ∨ op = .gt ∨ op = .ge → ord K op l s = (Spec.compare op l v, none) := by
    intro op hop
    cases s with
    | same w => obtain rfl : w = v := by simpa [SrcInts] using hs
                exact ord_ints K op hop l w rfl rfl
    | self => obtain rfl : l = v := by simpa [SrcInts] using hs
              exact ord_ints K op hop l l rfl rfl
    | list xs =>
      simp only [SrcInts] at hs
      split at hs
      · next h =>
        obtain rfl := Option.some.inj hs
        exact ord_ints K op hop l _ (map_toElem_ints h).1 rfl
      · cases hs
    | _ => simp [SrcInts] at hs
  have heq : eq K l s = (decide (l = v), none) := by
    cases s with
    | same w =>
      obtain rfl : w = v := by simpa [SrcInts] using hs
      simp only [eq]
      split
      · next h => rw [decide_eq_false]; rintro rfl; exact h rfl
      · rfl
    | self => obtain rfl : l = v := by simpa [SrcInts] using hs
              rfl
    | list xs =>
      simp only [SrcInts] at hs
      split at hs
      · next h =>
        obtain rfl := Option.some.inj hs
        simp only [eq]
        split
        · next h => rw [decide_eq_false]; rintro rfl; simp at h
        · next hl =>
          rw [(map_toElem_ints h).1, eqLoop_vals]
          simpa using hl
      · cases hs
    | _ => simp [SrcInts] at hs
  have hspec : Spec.cmp op l s = .ok (.bool (Spec.compare op l v)) := by
    unfold Spec.cmp
    cases s with
    | same w => obtain rfl : w = v := by simpa [SrcInts] using hs
                rfl
    | self => obtain rfl : l = v := by simpa [SrcInts] using hs
              rfl
    | list xs =>
      simp only [SrcInts] at hs
      split at hs
      · next h => obtain rfl := Option.some.inj hs; simp only [(map_toElem_ints h).2]
      · cases hs
    | _ => simp [SrcInts] at hs
  simp only [Spec.step, hspec]
  cases op with
  | eq => simp only [compare, heq, boolOut, Agrees, RetIs, Spec.compare, and_self]
  | ne => simp [compare, heq, boolOut, Agrees, RetIs, Spec.compare]
  | lt => simp [compare, hord .lt (by simp), boolOut, Agrees, RetIs]
  | le => simp [compare, hord .le (by simp), boolOut, Agrees, RetIs]
  | gt => simp [compare, hord .gt (by simp), boolOut, Agrees, RetIs]
  | ge => simp [compare, hord .ge (by simp), boolOut, Agrees, RetIs]

/-! ### `repr` -/

theorem reprLoop_eq (l : List Int) (acc : String) :
    reprLoop l acc = acc ++ String.join (l.map fun v => toString v ++ ", ") := by
  induction l generalizing acc with
  | nil => simp [reprLoop, String.join]
  | cons v vs ih =>
    rw [reprLoop, ih]
    simp [String.join_cons, String.append_assoc]

theorem join_last (l : List Int) (last : Int) :
    String.join (l.map fun v => toString v ++ ", ") ++ toString last =
      String.intercalate ", " ((l ++ [last]).map toString) := by
  induction l with
  | nil => simp [String.join, String.intercalate_singleton]
  | cons v vs ih =>
    rw [List.map_cons, String.join_cons, String.append_assoc, ih, List.cons_append, List.map_cons]
    cases vs with
    | nil => simp [String.intercalate_cons_cons, String.append_assoc]
    | cons w ws => simp [String.intercalate_cons_cons, String.append_assoc]

theorem repr_eq (l : List Int) : repr l = Spec.repr l := by
  unfold repr Spec.repr
  cases h : l.getLast? with
  | none => rw [List.getLast?_eq_none_iff] at h; subst h; simp
  | some last =>
    obtain ⟨ys, rfl⟩ := List.getLast?_eq_some_iff.1 h
    rw [← join_last]
    simp only [List.dropLast_concat, reprLoop_eq, String.append_assoc]

end Verif.ArrayList
