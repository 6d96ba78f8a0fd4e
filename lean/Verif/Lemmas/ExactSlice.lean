import Verif.Lemmas.Exact
import Verif.Lemmas.Get

/-! Helper lemmas: the domain `Exact` of the array lists is exact; slice assignment and the whole step. -/

namespace Verif.ArrayList

open Verif

/-! ### Reading an element back -/

theorem rebox_split (cfg : Cfg) (K : Kind) {v : Int} (hv : FitsS K.bits v) :
    rebox K cfg.py v = ((rebox K cfg.py v).1, none) ∧ FitsS K.bits (rebox K cfg.py v).1 ∧
      ((rebox K cfg.py v).1 = v ↔ ReadBack cfg K v) := by
  by_cases h : K = .i64 ∨ cfg.py = .le311 ∨ 0 ≤ v
  · have e := rebox_eq cfg K hv h
    rw [e]
    refine ⟨rfl, hv, fun _ => ?_, fun _ => rfl⟩
    rcases h with h | h | h
    · exact .inl h
    · exact .inr (.inl h)
    · exact .inr (.inr (.inl h))
  · have hK : K = .i32 := by
      cases K with
      | i32 => rfl
      | i64 => exact absurd (.inl rfl) h
    have hpy : cfg.py ≠ .le311 := fun e => h (.inr (.inl e))
    have hneg : v < 0 := by
      refine Classical.byContradiction fun e => h (.inr (.inr (by omega)))
    subst hK
    have hv' : FitsS 32 v := hv
    by_cases hm : v = -(2 ^ 31)
    · have e : rebox .i32 cfg.py v = (v, none) := by
        rw [hm]
        cases hc : cfg.py with
        | le311 => exact absurd hc hpy
        | v312 | ge313 => decide
      rw [e]
      exact ⟨rfl, hv, fun _ => .inr (.inr (.inr hm)), fun _ => rfl⟩
    · have e := rebox_negative cfg hpy hv' hneg hm
      rw [e]
      rw [fits32] at hv'
      refine ⟨rfl, (by simp only [Kind.bits, fits32]; omega), fun h' => ?_, fun h' => ?_⟩
      · simp only at h'; omega
      · rcases h' with h' | h' | h' | h'
        · cases h'
        · exact absurd h' hpy
        · omega
        · exact absurd h' hm

/-! ### Taking the call apart -/

/-- The contiguous part of slice assignment on natural numbers: `m` new items for the `n` elements from `lo` on. -/
def put (cfg : Cfg) (K : Kind) (l : List Int) (src : Src) (m lo n : Nat) : LOut :=
  if m = n then assignLoop cfg K src lo n 0 l
  else if m < n then
    match assignLoop cfg K src lo m 0 l with
    | .ok l' _ => if lo + n ≤ l'.length then .ok (l'.take (lo + m) ++ l'.drop (lo + n)) .none else .ub .badIterator
    | o => o
  else
    match assignLoop cfg K src lo n 0 l with
    | .ok l' _ => insertLoop cfg K src lo (m - n) n l'
    | o => o

theorem clamp_one {k : Int} : (if clampSsize k < -ssizeMax then -ssizeMax else clampSsize k) = 1 ↔ k = 1 := by
  unfold clampSsize ssizeMax
  constructor
  · intro h
    split at h
    · omega
    · split at h <;> (try split at h) <;> omega
  · rintro rfl
    decide

/-- The bounds of a slice with step 1, as natural numbers. -/
theorem slice_bounds (cfg : Cfg) (K : Kind) (l : List Int) (s : SliceArg) (src : Src) {i j : Option Int}
    (hn : (l.length : Int) ≤ ssizeMax) (hs : Spec.fields s = .ok (i, j, 1)) (hseq : src.isSequence = true) :
    let lo := ((i.map (Spec.clampUp l.length)).getD 0).toNat
    let hi := ((j.map (Spec.clampUp l.length)).getD l.length).toNat
    lo ≤ l.length ∧ hi ≤ l.length ∧
    (∀ m : Nat, srcSize l src = m →
      assSubscript cfg K l (.slice s) (some (.inr src)) = put cfg K l src m lo (hi - lo)) ∧
    (srcSize l src = -1 → ∀ r, ¬ Agrees (assSubscript cfg K l (.slice s) (some (.inr src))) r) := by
  dsimp only
  simp only [assSubscript]
  obtain ⟨h1, h2⟩ := sliceUnpack_fields s
  rw [h1, hs]
  simp only
  generalize ha : adjustIndices _ _ _ _ = adj
  obtain ⟨start, stop, cnt⟩ := adj
  obtain ⟨p1, p2, p3⟩ := adjust_positions hn (h2 i j 1 hs) ha
  simp only
  obtain ⟨q1, q2⟩ := p3 (by decide)
  have hc1 : (if clampSsize 1 < -ssizeMax then -ssizeMax else clampSsize 1) = 1 := by decide
  rw [hc1]
  have b1 : 0 ≤ start ∧ start ≤ l.length := by
    rw [q1]; cases i
    · simp
    · simp only [Option.map_some, Option.getD_some, Spec.clampUp]; omega
  have b2 : 0 ≤ stop ∧ stop ≤ l.length := by
    rw [q2]; cases j
    · simp
    · simp only [Option.map_some, Option.getD_some, Spec.clampUp]; omega
  have hcn : cnt = ((stop.toNat - start.toNat : Nat) : Int) := by
    rw [hc1] at ha
    have h1 := congrArg (fun x => x.1) ha
    have h2 := congrArg (fun x => x.2.1) ha
    have h3 := congrArg (fun x => x.2.2) ha
    simp only [adjustIndices, show ¬ ((1:Int) < 0) by decide, if_false] at h1 h2 h3
    rw [h1, h2, Int.ediv_one] at h3
    omega
  rw [← q1, ← q2]
  clear p1 p2 p3 q1 q2 ha h1 h2
  simp only [hseq, Bool.not_true, Bool.false_eq_true, if_false, ne_eq, not_true_eq_false]
  refine ⟨by omega, by omega, ?_, ?_⟩
  · intro m hm
    rw [hm]
    unfold put
    have ec : cnt.toNat = stop.toNat - start.toNat := by omega
    rw [ec]
    by_cases e1 : m = stop.toNat - start.toNat
    · rw [if_pos (by omega), if_pos e1]
    · rw [if_neg (by omega), if_neg e1]
      by_cases e2 : m < stop.toNat - start.toNat
      · rw [if_pos (by omega), if_pos e2]
        simp only [Int.toNat_natCast]
        cases hl : assignLoop cfg K src start.toNat m 0 l with
        | ok l' r =>
          simp only
          by_cases e3 : start.toNat + (stop.toNat - start.toNat) ≤ l'.length
          · rw [if_pos (by omega), if_neg (by omega), if_pos e3]
            congr 2
            · congr 1; omega
            · congr 1; omega
          · rw [if_neg (by omega), if_neg e3]
        | exc | pending | ub => rfl
      · rw [if_neg (by omega), if_neg e2]
        rw [show ((m : Int) - cnt).toNat = m - (stop.toNat - start.toNat) by omega]
        cases hl : assignLoop cfg K src start.toNat (stop.toNat - start.toNat) 0 l <;> rfl
  · intro hm r
    rw [hm, if_neg (by omega), if_pos (by omega)]
    simp only [show ((-1 : Int)).toNat = 0 from rfl, assignLoop]
    split
    · simp [Agrees]
    · exact id

/-- A step other than 1. -/
theorem slice_step (cfg : Cfg) (K : Kind) (l : List Int) (s : SliceArg) (src : Src) {i j : Option Int} {k : Int}
    (hs : Spec.fields s = .ok (i, j, k)) (hk : k ≠ 1) (hseq : src.isSequence = true) :
    assSubscript cfg K l (.slice s) (some (.inr src)) = .exc l .notImplementedError := by
  simp only [assSubscript]
  rw [(sliceUnpack_fields s).1, hs]
  simp only
  generalize adjustIndices _ _ _ _ = adj
  obtain ⟨start, stop, cnt⟩ := adj
  simp only [hseq, Bool.not_true, Bool.false_eq_true, if_false]
  rw [if_pos (fun h => hk (clamp_one.1 h))]

/-- Slice assignment on a Python list never raises NotImplementedError here. -/
theorem elem_exc {b : Nat} {xs : List Arg} {e : Exc} (h : Spec.firstBad b xs = some e) :
    e = .typeError ∨ e = .overflowError := by
  unfold Spec.firstBad at h
  split at h
  · cases h
  · cases h; exact .inl rfl
  · cases h; exact .inr rfl

/-! ### Items that all convert -/

theorem put_vals (cfg : Cfg) (K : Kind) (s : Src) (l vs : List Int)
    (hget : ∀ cur i, srcItem cfg K cur s i = vs[i]?.map fun v => (v, none))
    (lo n : Nat) (hlo : lo + n ≤ l.length) :
    put cfg K l s vs.length lo n = .ok (l.take lo ++ vs ++ l.drop (lo + n)) .none := by
  unfold put
  split
  · next h =>
    rw [assignLoop_eq cfg K s vs hget _ _ _ _ (by omega) (by omega)]
    simp only [Nat.add_zero, List.drop_zero]
    rw [List.take_of_length_le (l := vs) (by omega)]
  · split
    · rw [assignLoop_eq cfg K s vs hget _ _ _ _ (by omega) (by omega)]
      simp only [Nat.add_zero, List.drop_zero, List.take_length]
      have e : (l.take lo).length = lo := by simp; omega
      have e2 : (l.take lo ++ vs ++ l.drop (lo + vs.length)).length = l.length := by simp; omega
      rw [if_pos (by rw [e2]; omega)]
      congr 1
      have t1 : (l.take lo ++ vs ++ l.drop (lo + vs.length)).take (lo + vs.length) = l.take lo ++ vs := by
        rw [List.take_append, List.take_of_length_le (by simp; omega)]
        have : lo + vs.length - (l.take lo ++ vs).length = 0 := by simp; omega
        rw [this]; simp
      rw [t1]
      congr 1
      rw [List.drop_append, List.drop_eq_nil_of_le (as := l.take lo ++ vs) (by simp; omega), List.drop_drop]
      simp only [List.nil_append]
      congr 1
      simp; omega
    · rw [assignLoop_eq cfg K s vs hget _ _ _ _ (by omega) (by omega)]
      simp only [Nat.add_zero, List.drop_zero]
      rw [insertLoop_eq cfg K s vs hget _ _ _ _ (by omega) (by simp; omega)]
      congr 1
      have e : (l.take lo ++ vs.take n).length = lo + n := by simp; omega
      rw [List.take_append, List.take_of_length_le (l := l.take lo ++ vs.take n) (by omega), e, Nat.sub_self,
        List.drop_append, List.drop_eq_nil_of_le (as := l.take lo ++ vs.take n) (by omega), e, Nat.sub_self]
      simp only [List.take_zero, List.append_nil, List.drop_zero, List.nil_append]
      rw [List.take_of_length_le (l := vs.drop n) (by simp)]
      rw [List.append_assoc, List.append_assoc, List.append_assoc, ← List.append_assoc (vs.take n),
        List.take_append_drop]

/-! ### Items of which one raises -/

/-- What `insertLoop` does to the length. -/
theorem insertLoop_len (cfg : Cfg) (K : Kind) (s : Src) (lo : Nat) : ∀ (k i : Nat) (cur : List Int) {s' : List Int},
    (insertLoop cfg K s lo k i cur).state? = some s' → cur.length ≤ s'.length := by
  intro k
  induction k with
  | zero => intro i cur s' h; cases h; exact Nat.le_refl _
  | succ k ih =>
    intro i cur s' h
    rw [insertLoop] at h
    split at h
    · cases h; exact Nat.le_refl _
    · next v e hv =>
      split at h
      · have hlen : (cur.take (lo + i) ++ v :: cur.drop (lo + i)).length = cur.length + 1 := by simp; omega
        dsimp only at h
        split at h
        · cases h
          omega
        · have := ih _ _ h
          omega
      · cases h

theorem insertLoop_grows (cfg : Cfg) (K : Kind) (s : Src) (lo k i : Nat) (cur : List Int) {s' : List Int}
    (hi : srcItem cfg K cur s i ≠ none) (h : (insertLoop cfg K s lo (k + 1) i cur).state? = some s') :
    cur.length < s'.length := by
  rw [insertLoop] at h
  split at h
  · next hn => exact absurd hn hi
  · next v e hv =>
    split at h
    · have hlen : (cur.take (lo + i) ++ v :: cur.drop (lo + i)).length = cur.length + 1 := by simp; omega
      dsimp only at h
      split at h
      · cases h
        omega
      · have := insertLoop_len cfg K s lo _ _ _ h
        omega
    · cases h

/-- The overwriting loop up to the item that raises. -/
theorem assignLoop_raise (cfg : Cfg) (K : Kind) (s : Src) (lo r : Nat) (e : Exc) (vs : List Int)
    (hvs : vs.length = r)
    (hget : ∀ cur i, i < r → srcItem cfg K cur s i = vs[i]?.map fun v => (v, none))
    (hr : ∀ cur, srcItem cfg K cur s r = some (-1, some e)) :
    ∀ (n i : Nat) (cur : List Int), i ≤ r → r < i + n → lo + i + n ≤ cur.length →
    assignLoop cfg K s lo n i cur =
      .exc (cur.take (lo + i) ++ vs.drop i ++ -1 :: cur.drop (lo + r + 1)) e := by
  intro n
  induction n with
  | zero => intro i cur h1 h2; omega
  | succ n ih =>
    intro i cur h1 h2 h3
    rw [assignLoop]
    by_cases hi : i = r
    · subst hi
      rw [hr]
      dsimp only
      rw [if_pos (by omega), List.set_eq_take_append_cons_drop, if_pos (by omega),
        List.drop_eq_nil_of_le (as := vs) (by omega), List.append_nil]
    · have hlt : i < vs.length := by omega
      rw [hget cur i (by omega), List.getElem?_eq_getElem hlt]
      dsimp only [Option.map_some]
      rw [if_pos (by omega), ih (i + 1) _ (by omega) (by omega) (by simp; omega)]
      congr 1
      rw [List.set_eq_take_append_cons_drop, if_pos (by omega), List.drop_eq_getElem_cons hlt]
      have e1 : (cur.take (lo + i)).length = lo + i := by simp; omega
      rw [show lo + (i + 1) = lo + i + 1 by omega]
      rw [List.take_append, e1, List.take_of_length_le (by omega), Nat.add_sub_cancel_left]
      rw [List.drop_append, e1, List.drop_eq_nil_of_le (as := cur.take (lo + i)) (by omega)]
      rw [show lo + r + 1 - (lo + i) = (r - i) + 1 by omega]
      simp
      congr 1; omega

theorem firstBad_none_iff {b : Nat} {xs : List Arg} : Spec.firstBad b xs = none ↔ ∀ a ∈ xs, Spec.IsElem b a = true := by
  unfold Spec.firstBad
  constructor
  · intro h a ha
    split at h
    · next hn => simpa using List.find?_eq_none.1 hn a ha
    · cases h
    · cases h
  · intro h
    have : xs.find? (fun a => !Spec.IsElem b a) = none := by
      rw [List.find?_eq_none]
      intro a ha
      simp [h a ha]
    rw [this]

/-- The first item that fits no machine word. -/
theorem first_raised {xs : List Arg} (h : ¬ ∀ a ∈ xs, Spec.IsElem 64 a = true) :
    ∃ a, xs[(xs.takeWhile (Spec.IsElem 64)).length]? = some a ∧ Spec.IsElem 64 a = false ∧
      Spec.firstBad 64 xs = some (raised a) := by
  induction xs with
  | nil => exact absurd (by simp) h
  | cons x xs ih =>
    by_cases hx : Spec.IsElem 64 x = true
    · obtain ⟨a, h1, h2, h3⟩ := ih fun hall => h (by simpa [hx] using hall)
      refine ⟨a, ?_, h2, ?_⟩
      · rw [List.takeWhile_cons, if_pos hx]
        simpa using h1
      · rw [(prefix_cons_pos hx).2, h3]
    · have hx := Bool.eq_false_iff.2 hx
      refine ⟨x, ?_, hx, (prefix_cons_neg hx).2⟩
      rw [List.takeWhile_cons, if_neg (by rw [hx]; exact Bool.false_ne_true)]
      rfl

theorem getD_takeWhile {xs : List Arg} : ∀ {i : Nat}, i < (xs.takeWhile (Spec.IsElem 64)).length →
    xs[i]? = some (xs.getD i .other) ∧ Spec.IsElem 64 (xs.getD i .other) = true := by
  induction xs with
  | nil => intro i h; exact absurd h (Nat.not_lt_zero _)
  | cons x xs ih =>
    intro i h
    by_cases hx : Spec.IsElem 64 x = true
    · cases i with
      | zero => exact ⟨rfl, hx⟩
      | succ i =>
        rw [List.takeWhile_cons, if_pos hx] at h
        simpa using ih (i := i) (by simpa using h)
    · rw [List.takeWhile_cons, if_neg hx] at h
      exact absurd h (Nat.not_lt_zero _)

/-- Splitting a list at a position and the part before it. -/
theorem split_at (l : List Int) (lo r : Nat) (h : lo + r < l.length) :
    l = l.take lo ++ (l.drop lo).take r ++ l.getD (lo + r) 0 :: l.drop (lo + r + 1) := by
  have e1 : l.take lo ++ (l.drop lo).take r = l.take (lo + r) := by
    rw [List.take_add]
  have e2 : l.getD (lo + r) 0 = l[lo + r] := by simp [List.getD_eq_getElem?_getD, h]
  rw [e1, e2, ← List.drop_eq_getElem_cons h, List.take_append_drop]

theorem put_items (cfg : Cfg) (K : Kind) (s : Src) (l : List Int) (xs : List Arg) (lo n : Nat) (hf : AllFits K l)
    (hget : ∀ cur i, srcItem cfg K cur s i = xs[i]?.map (toElem K)) (hlo : lo + n ≤ l.length) :
    Agrees (put cfg K l s xs.length lo n)
      (match Spec.firstBad K.bits xs with
        | some e => (l, .error e)
        | none => (l.take lo ++ xs.map Spec.argVal ++ l.drop (lo + n), .ok .none)) ↔ AssignOk K l lo n xs := by
  by_cases hall : ∀ a ∈ xs, Spec.IsElem 64 a = true
  · -- every item converts
    have hr : (xs.takeWhile (Spec.IsElem 64)).length = xs.length := by
      have : xs.takeWhile (Spec.IsElem 64) = xs := by
        clear hget hlo
        induction xs with
        | nil => rfl
        | cons x xs ih =>
          rw [List.takeWhile_cons, if_pos (hall x (by simp)), ih fun a ha => hall a (List.mem_cons_of_mem _ ha)]
      rw [this]
    have hv : ∀ cur i, srcItem cfg K cur s i =
        (xs.map fun a => wrapS K.bits (Spec.argVal a))[i]?.map fun v => (v, none) := by
      intro cur i
      rw [hget, List.getElem?_map]
      cases hx : xs[i]? with
      | none => rfl
      | some a => simp only [Option.map_some, toElem_word (hall a (List.mem_of_getElem? hx))]
    have hput := put_vals cfg K s l _ hv lo n hlo
    rw [List.length_map] at hput
    rw [hput]
    unfold AssignOk
    dsimp only
    rw [hr, ← firstBad_none_iff]
    cases hb : Spec.firstBad K.bits xs with
    | some e => simp [Agrees]
    | none =>
      simp only [true_or, iff_true]
      refine ⟨?_, trivial⟩
      congr 2
      refine List.map_congr_left fun a ha => ?_
      have := firstBad_none_iff.1 hb a ha
      cases a with
      | other => cases this
      | int v | index v => exact wrapS_of_fits K (of_decide_eq_true this)
  · -- one raises
    obtain ⟨a, ha, hna, hbad⟩ := first_raised hall
    have hpre := fun i => getD_takeWhile (xs := xs) (i := i)
    generalize hr : (xs.takeWhile (Spec.IsElem 64)).length = r at ha hpre
    have hrx : r < xs.length := by
      refine Classical.byContradiction fun hge => ?_
      rw [List.getElem?_eq_none (by omega)] at ha
      cases ha
    have hnk : ¬ ∀ a ∈ xs, Spec.IsElem K.bits a = true := fun h => hall fun a ha => isElem_mono (h a ha)
    obtain ⟨eK, heK⟩ : ∃ e, Spec.firstBad K.bits xs = some e := by
      cases h : Spec.firstBad K.bits xs with
      | none => exact absurd (firstBad_none_iff.1 h) hnk
      | some e => exact ⟨e, rfl⟩
    unfold AssignOk
    simp only [hr, hrx, true_and, hnk, false_or, heK, hbad]
    let vs := (List.range r).map fun i => wrapS K.bits (Spec.argVal (xs.getD i .other))
    have hvs : vs.length = r := by simp [vs]
    have hv : ∀ cur i, i < r → srcItem cfg K cur s i = vs[i]?.map fun v => (v, none) := by
      intro cur i hi
      obtain ⟨h1, h2⟩ := hpre i hi
      rw [hget, h1]
      simp only [Option.map_some, toElem_word h2, vs, List.getElem?_map, List.getElem?_range hi]
    have hra : ∀ cur, srcItem cfg K cur s r = some (-1, some (raised a)) := by
      intro cur
      rw [hget, ha, Option.map_some, toElem_raised hna]
    by_cases hrn : r < n
    · -- in the overwriting loop
      have key : put cfg K l s xs.length lo n =
          .exc (l.take lo ++ vs ++ -1 :: l.drop (lo + r + 1)) (raised a) := by
        have hloop : ∀ k, r < k → lo + k ≤ l.length → assignLoop cfg K s lo k 0 l =
            .exc (l.take lo ++ vs ++ -1 :: l.drop (lo + r + 1)) (raised a) := by
          intro k h1 h2
          have := assignLoop_raise cfg K s lo r (raised a) vs hvs hv hra k 0 l (by omega) (by omega) (by omega)
          simpa using this
        unfold put
        split
        · exact hloop n hrn hlo
        · split
          · rw [hloop xs.length hrx (by omega)]
          · rw [hloop n hrn hlo]
      rw [key]
      simp only [Agrees, hrn, true_and]
      have hsplit := split_at l lo r (by omega)
      have hstate : l.take lo ++ vs ++ -1 :: l.drop (lo + r + 1) = l ↔
          l.getD (lo + r) 0 = -1 ∧ ∀ i, i < r → SameLow K (Spec.argVal (xs.getD i .other)) (l.getD (lo + i) 0) := by
        have h1 : l.take lo ++ vs ++ -1 :: l.drop (lo + r + 1) = l ↔
            vs = (l.drop lo).take r ∧ -1 = l.getD (lo + r) 0 := by
          conv => lhs; rhs; rw [hsplit]
          rw [List.append_assoc, List.append_assoc, List.append_cancel_left_eq]
          constructor
          · intro h
            have hl : vs.length = ((l.drop lo).take r).length := by simp [hvs]; omega
            obtain ⟨h1, h2⟩ := List.append_inj h hl
            exact ⟨h1, (List.cons.inj h2).1⟩
          · rintro ⟨h1, h2⟩
            rw [h1, h2]
        rw [h1, and_comm, eq_comm]
        refine and_congr_right fun _ => ?_
        constructor
        · intro h i hi
          have hfit : FitsS K.bits (l.getD (lo + i) 0) := hf _ (getD_mem l (by omega))
          rw [sameLow_iff hfit]
          have := congrArg (fun t => t[i]?) h
          simp only [vs, List.getElem?_map, List.getElem?_range hi, Option.map_some,
            List.getElem?_take_of_lt hi, List.getElem?_drop] at this
          rw [show l.getD (lo + i) 0 = (l[lo + i]?).getD 0 from List.getD_eq_getElem?_getD .., ← this]
          rfl
        · intro h
          refine List.ext_getElem? fun i => ?_
          by_cases hi : i < r
          · have hfit : FitsS K.bits (l.getD (lo + i) 0) := hf _ (getD_mem l (by omega))
            have := (sameLow_iff hfit).1 (h i hi)
            simp only [vs, List.getElem?_map, List.getElem?_range hi, Option.map_some,
              List.getElem?_take_of_lt hi, List.getElem?_drop]
            rw [this, List.getD_eq_getElem?_getD, List.getElem?_eq_getElem (by omega)]
            rfl
          · rw [List.getElem?_eq_none (by omega), List.getElem?_eq_none (by simp; omega)]
      rw [hstate]
      constructor
      · rintro ⟨⟨h1, h2⟩, h3⟩
        exact ⟨h1, by rw [h3], h2⟩
      · rintro ⟨h1, h2, h3⟩
        exact ⟨⟨h1, h3⟩, (Option.some.inj h2).symm⟩
    · -- in the inserting loop
      simp only [hrn, false_and, iff_false]
      intro h
      have hst : (put cfg K l s xs.length lo n).state? = some l := by
        rcases hp : put cfg K l s xs.length lo n with ⟨s, a⟩ | ⟨s, e⟩ | ⟨s, a, e⟩ | u <;> rw [hp] at h <;>
          first | exact absurd h id | skip
        obtain ⟨rfl, _⟩ := h; rfl
      unfold put at hst
      rw [if_neg (by omega), if_neg (by omega)] at hst
      -- the overwriting loop succeeds and keeps the length
      have hass : ∃ l', assignLoop cfg K s lo n 0 l = .ok l' .none ∧ l'.length = l.length := by
        have : ∀ (k i : Nat) (cur : List Int), i + k ≤ r → lo + i + k ≤ cur.length →
            ∃ l', assignLoop cfg K s lo k i cur = .ok l' .none ∧ l'.length = cur.length := by
          intro k
          induction k with
          | zero => intro i cur _ _; exact ⟨cur, rfl, rfl⟩
          | succ k ih =>
            intro i cur h1 h2
            rw [assignLoop, hv cur i (by omega), List.getElem?_eq_getElem (by omega)]
            dsimp only [Option.map_some]
            rw [if_pos (by omega)]
            obtain ⟨l', h3, h4⟩ := ih (i + 1) (cur.set (lo + i) vs[i]) (by omega) (by simp; omega)
            exact ⟨l', h3, by rw [h4]; simp⟩
        exact this n 0 l (by omega) (by omega)
      obtain ⟨l', h1, h2⟩ := hass
      rw [h1] at hst
      dsimp only at hst
      obtain ⟨k, hk⟩ : ∃ k, xs.length - n = k + 1 := ⟨xs.length - n - 1, by omega⟩
      rw [hk] at hst
      have := insertLoop_grows cfg K s lo k n l' (by rw [hget, List.getElem?_eq_getElem (by omega)]; simp) hst
      omega

/-! ### The list itself -/

/-- The first `i` items written when the list is assigned to `n` of its own elements from `lo` on. -/
def selfW (ρ : Int → Int) (l : List Int) (lo n : Nat) : Nat → List Int
  | 0 => []
  | i + 1 => selfW ρ l lo n i ++ [ρ ((l.take lo ++ selfW ρ l lo n i ++ l.drop (lo + min i n)).getD i 0)]

theorem selfW_length (ρ : Int → Int) (l : List Int) (lo n i : Nat) : (selfW ρ l lo n i).length = i := by
  induction i with
  | zero => rfl
  | succ i ih => simp [selfW, ih]

theorem selfW_fits (cfg : Cfg) (K : Kind) (l : List Int) (lo n : Nat) (hf : AllFits K l) (hlo : lo + n ≤ l.length) :
    ∀ i, i ≤ l.length → AllFits K (selfW (fun v => (rebox K cfg.py v).1) l lo n i) := by
  intro i
  induction i with
  | zero => intro _; exact fits_nil K
  | succ i ih =>
    intro hi
    have ih := ih (by omega)
    have hall := fits_append (fits_append (fits_take hf lo) ih) (fits_drop hf (lo + min i n))
    have hlen : i < (l.take lo ++ selfW (fun v => (rebox K cfg.py v).1) l lo n i ++ l.drop (lo + min i n)).length := by
      simp only [List.length_append, List.length_take, List.length_drop, selfW_length]
      omega
    refine fits_append ih (fits_cons ?_ (fits_nil K))
    exact (rebox_split cfg K (hall _ (getD_mem _ hlen))).2.1

/-- One item read from the list itself. -/
theorem self_item (cfg : Cfg) (K : Kind) (l : List Int) (lo n i : Nat) (hf : AllFits K l) (hlo : lo + n ≤ l.length)
    (hi : i < l.length) {d : Nat} (hd : d = lo + min i n) :
    srcItem cfg K (l.take lo ++ selfW (fun v => (rebox K cfg.py v).1) l lo n i ++ l.drop d) .self i =
      some ((rebox K cfg.py ((l.take lo ++ selfW (fun v => (rebox K cfg.py v).1) l lo n i ++ l.drop d).getD i 0)).1,
        none) := by
  subst hd
  have hall := fits_append (fits_append (fits_take hf lo) (selfW_fits cfg K l lo n hf hlo i (by omega)))
    (fits_drop hf (lo + min i n))
  have hlen : i < (l.take lo ++ selfW (fun v => (rebox K cfg.py v).1) l lo n i ++ l.drop (lo + min i n)).length := by
    simp only [List.length_append, List.length_take, List.length_drop, selfW_length]
    omega
  generalize l.take lo ++ selfW (fun v => (rebox K cfg.py v).1) l lo n i ++ l.drop (lo + min i n) = cur at hall hlen
  have hm := getD_mem cur hlen
  have hr := (rebox_split cfg K (hall _ hm)).1
  rw [srcItem, List.getElem?_eq_getElem hlen, Option.map_some]
  have e : cur.getD i 0 = cur[i] := by simp [List.getD_eq_getElem?_getD, hlen]
  rw [e] at hr ⊢
  rw [← hr]

theorem assign_self (cfg : Cfg) (K : Kind) (l : List Int) (lo n : Nat) (hf : AllFits K l) (hlo : lo + n ≤ l.length) :
    ∀ k i, i + k ≤ n →
    assignLoop cfg K .self lo k i
      (l.take lo ++ selfW (fun v => (rebox K cfg.py v).1) l lo n i ++ l.drop (lo + i)) =
      .ok (l.take lo ++ selfW (fun v => (rebox K cfg.py v).1) l lo n (i + k) ++ l.drop (lo + (i + k))) .none := by
  intro k
  induction k with
  | zero => intro i _; rfl
  | succ k ih =>
    intro i hi
    rw [assignLoop, self_item cfg K l lo n i hf hlo (by omega) (by omega)]
    dsimp only
    have hw := selfW_length (fun v => (rebox K cfg.py v).1) l lo n i
    rw [if_pos (by simp only [List.length_append, List.length_take, List.length_drop, hw]; omega)]
    have e : (l.take lo ++ selfW (fun v => (rebox K cfg.py v).1) l lo n i ++ l.drop (lo + i)).set (lo + i)
        ((rebox K cfg.py ((l.take lo ++ selfW (fun v => (rebox K cfg.py v).1) l lo n i ++ l.drop (lo + i)).getD i 0)).1) =
        l.take lo ++ selfW (fun v => (rebox K cfg.py v).1) l lo n (i + 1) ++ l.drop (lo + (i + 1)) := by
      rw [selfW, show min i n = i by omega]
      generalize (rebox K cfg.py (List.getD _ i 0)).1 = x
      have hl : (l.take lo ++ selfW (fun v => (rebox K cfg.py v).1) l lo n i).length = lo + i := by
        simp only [List.length_append, List.length_take, hw]; omega
      rw [List.set_append_right _ _ (by omega), hl, Nat.sub_self, List.drop_eq_getElem_cons (by omega), List.set_cons_zero]
      simp [Nat.add_assoc]
    rw [e, ih (i + 1) (by omega)]
    rw [show i + 1 + k = i + (k + 1) by omega]

theorem insert_self (cfg : Cfg) (K : Kind) (l : List Int) (lo n : Nat) (hf : AllFits K l) (hlo : lo + n ≤ l.length) :
    ∀ k i, n ≤ i → i + k ≤ l.length →
    insertLoop cfg K .self lo k i
      (l.take lo ++ selfW (fun v => (rebox K cfg.py v).1) l lo n i ++ l.drop (lo + n)) =
      .ok (l.take lo ++ selfW (fun v => (rebox K cfg.py v).1) l lo n (i + k) ++ l.drop (lo + n)) .none := by
  intro k
  induction k with
  | zero => intro i _ _; rfl
  | succ k ih =>
    intro i hn hi
    rw [insertLoop, self_item cfg K l lo n i hf hlo (by omega) (by omega)]
    dsimp only
    have hw := selfW_length (fun v => (rebox K cfg.py v).1) l lo n i
    rw [if_pos (by simp only [List.length_append, List.length_take, List.length_drop, hw]; omega)]
    have e : (l.take lo ++ selfW (fun v => (rebox K cfg.py v).1) l lo n i ++ l.drop (lo + n)).take (lo + i) ++
        (rebox K cfg.py ((l.take lo ++ selfW (fun v => (rebox K cfg.py v).1) l lo n i ++ l.drop (lo + n)).getD i 0)).1 ::
        (l.take lo ++ selfW (fun v => (rebox K cfg.py v).1) l lo n i ++ l.drop (lo + n)).drop (lo + i) =
        l.take lo ++ selfW (fun v => (rebox K cfg.py v).1) l lo n (i + 1) ++ l.drop (lo + n) := by
      rw [selfW, show min i n = n by omega]
      generalize (rebox K cfg.py (List.getD _ i 0)).1 = x
      have hl : (l.take lo ++ selfW (fun v => (rebox K cfg.py v).1) l lo n i).length = lo + i := by
        simp only [List.length_append, List.length_take, hw]; omega
      rw [← hl, List.take_left, List.drop_left]
      simp
    rw [e, ih (i + 1) (by omega) (by omega)]
    rw [show i + 1 + k = i + (k + 1) by omega]

theorem put_self (cfg : Cfg) (K : Kind) (l : List Int) (lo n : Nat) (hf : AllFits K l) (hlo : lo + n ≤ l.length) :
    put cfg K l .self l.length lo n =
      .ok (l.take lo ++ selfW (fun v => (rebox K cfg.py v).1) l lo n l.length ++ l.drop (lo + n)) .none := by
  have ha := assign_self cfg K l lo n hf hlo n 0 (by omega)
  simp only [selfW, List.append_nil, Nat.add_zero, List.take_append_drop, Nat.zero_add] at ha
  unfold put
  split
  · next h => rw [ha, h]
  · rw [if_neg (by omega), ha]
    dsimp only
    rw [insert_self cfg K l lo n hf hlo (l.length - n) n (by omega) (by omega)]
    rw [show n + (l.length - n) = l.length by omega]

theorem getD_left {a b : List Int} {i : Nat} (h : i < a.length) : (a ++ b).getD i 0 = a.getD i 0 := by
  rw [List.getD_eq_getElem?_getD, List.getElem?_append_left h, List.getD_eq_getElem?_getD]

theorem getD_right {a b : List Int} {i : Nat} (h : a.length ≤ i) : (a ++ b).getD i 0 = b.getD (i - a.length) 0 := by
  rw [List.getD_eq_getElem?_getD, List.getElem?_append_right h, List.getD_eq_getElem?_getD]

/-- The items written, one by one. -/
theorem selfW_get (ρ : Int → Int) (l : List Int) (lo n : Nat) : ∀ (m i : Nat), i < m →
    (selfW ρ l lo n m).getD i 0 =
      ρ ((l.take lo ++ selfW ρ l lo n i ++ l.drop (lo + min i n)).getD i 0) := by
  intro m
  induction m with
  | zero => intro i hi; omega
  | succ m ih =>
    intro i hi
    rw [selfW]
    by_cases h : i = m
    · subst h
      rw [getD_right (by rw [selfW_length]; omega), selfW_length, Nat.sub_self]
      rfl
    · rw [getD_left (by rw [selfW_length]; omega)]
      exact ih i (by omega)

theorem eq_iff_getD {a b : List Int} (h : a.length = b.length) : a = b ↔ ∀ i, i < b.length → a.getD i 0 = b.getD i 0 := by
  constructor
  · rintro rfl i _; rfl
  · intro hi
    refine List.ext_getElem h fun i h1 h2 => ?_
    have := hi i h2
    simpa [List.getD_eq_getElem?_getD, h1, h2] using this

theorem self_exact (ρ : Int → Int) (l : List Int) (lo n : Nat) (hlo : lo + n ≤ l.length) :
    selfW ρ l lo n l.length = l ↔ (∀ x ∈ l, ρ x = x) ∧ SelfOk l lo n := by
  rw [eq_iff_getD (selfW_length ..)]
  have hmem : (∀ x ∈ l, ρ x = x) ↔ ∀ i, i < l.length → ρ (l.getD i 0) = l.getD i 0 := by
    constructor
    · intro h i hi; exact h _ (getD_mem l hi)
    · intro h x hx
      obtain ⟨i, hi, rfl⟩ := List.getElem_of_mem hx
      have := h i hi
      simpa [List.getD_eq_getElem?_getD, hi] using this
  rw [hmem]
  have hget := selfW_get ρ l lo n l.length
  unfold SelfOk
  by_cases h0 : lo = 0
  · subst h0
    rw [if_pos rfl]
    have hrd : ∀ i, i < l.length → (selfW ρ l 0 n l.length).getD i 0 = ρ (l.getD (min i n) 0) := by
      intro i hi
      rw [hget i hi]
      congr 1
      simp only [List.take_zero, List.nil_append, Nat.zero_add]
      rw [getD_right (by rw [selfW_length]; omega), selfW_length, Nat.sub_self]
      simp [List.getD_eq_getElem?_getD]
    constructor
    · intro h
      have h' : ∀ i, i < l.length → ρ (l.getD (min i n) 0) = l.getD i 0 := fun i hi => by rw [← hrd i hi, h i hi]
      have hn : ∀ i, i < l.length → n ≤ i → l.getD i 0 = l.getD n 0 := by
        intro i hi hni
        have h1 := h' i hi
        have h2 := h' n (by omega)
        rw [show min i n = n by omega] at h1
        rw [Nat.min_self] at h2
        rw [← h1, h2]
      refine ⟨fun i hi => ?_, fun i hi hni => hn i hi (by omega)⟩
      by_cases hin : i ≤ n
      · have := h' i hi
        rwa [show min i n = i by omega] at this
      · rw [hn i hi (by omega)]
        have := h' n (by omega)
        rwa [Nat.min_self] at this
    · rintro ⟨h1, h2⟩ i hi
      rw [hrd i hi, h1 _ (by omega)]
      by_cases hin : i ≤ n
      · rw [show min i n = i by omega]
      · rw [show min i n = n by omega, h2 i hi (by omega)]
  · rw [if_neg h0]
    have hpre : ∀ m i, i < m → m ≤ l.length → (selfW ρ l lo n m).getD i 0 = (selfW ρ l lo n l.length).getD i 0 := by
      intro m i hi hm
      rw [selfW_get ρ l lo n m i hi, hget i (by omega)]
    have hrd : ∀ i, i < l.length → (selfW ρ l lo n l.length).getD i 0 =
        ρ (if i < lo then l.getD i 0 else (selfW ρ l lo n l.length).getD (i - lo) 0) := by
      intro i hi
      rw [hget i hi]
      congr 1
      have htl : (l.take lo).length = lo := by simp; omega
      rw [getD_left (by simp only [List.length_append, htl, selfW_length]; omega)]
      split
      · next hlt =>
        rw [getD_left (by omega)]
        simp [List.getD_eq_getElem?_getD, hlt]
      · next hge =>
        rw [getD_right (by omega), htl]
        exact hpre i (i - lo) (by omega) (by omega)
    constructor
    · intro h
      have h' : ∀ i, i < l.length → ρ (if i < lo then l.getD i 0 else l.getD (i - lo) 0) = l.getD i 0 := by
        intro i hi
        have e := hrd i hi
        rw [h i hi] at e
        by_cases hlt : i < lo
        · rw [if_pos hlt] at e ⊢
          exact e.symm
        · rw [if_neg hlt] at e ⊢
          rw [h (i - lo) (by omega)] at e
          exact e.symm
      have hread : ∀ i, i < l.length → ρ (l.getD i 0) = l.getD i 0 := by
        intro i
        induction i using Nat.strongRecOn with
        | ind i ih =>
          intro hi
          have e := h' i hi
          by_cases hlt : i < lo
          · rwa [if_pos hlt] at e
          · rw [if_neg hlt] at e
            have e2 := ih (i - lo) (by omega) (by omega)
            rw [← e, e2, e2]
      refine ⟨hread, fun i hi => ?_⟩
      have e := h' (i + lo) (by omega)
      rw [if_neg (by omega), Nat.add_sub_cancel, hread i (by omega)] at e
      exact e.symm
    · rintro ⟨h1, h2⟩ i
      induction i using Nat.strongRecOn with
      | ind i ih =>
        intro hi
        rw [hrd i hi]
        by_cases hlt : i < lo
        · rw [if_pos hlt, h1 i hi]
        · rw [if_neg hlt, ih (i - lo) (by omega) (by omega), h1 _ (by omega)]
          have := h2 (i - lo) (by omega)
          rw [Nat.sub_add_cancel (by omega)] at this
          exact this.symm

/-! ### The whole step -/

theorem set_slice_exact (cfg : Cfg) (K : Kind) (l : List Int) (s : SliceArg) (v : Arg ⊕ Src) (hf : AllFits K l)
    (hn : (l.length : Int) ≤ ssizeMax) (hp : Possible K (.set (.slice s) v)) :
    Agrees (assSubscript cfg K l (.slice s) (some v)) (Spec.step K.bits l (.set (.slice s) v)) ↔
      Exact cfg K l (.set (.slice s) v) := by
  cases hs : Spec.fields s with
  | error e =>
    have h1 : assSubscript cfg K l (.slice s) (some v) = .exc l e := by
      simp only [assSubscript]
      rw [(sliceUnpack_fields s).1, hs]
    have h2 : Spec.step K.bits l (.set (.slice s) v) = (l, .error e) := by simp only [Spec.step, hs]
    rw [h1, h2]
    simp only [Exact, hs, iff_true]
    exact ⟨rfl, rfl⟩
  | ok f =>
    obtain ⟨i, j, k⟩ := f
    have hnoseq : ∀ src : Src, src.isSequence = false →
        assSubscript cfg K l (.slice s) (some (.inr src)) = .exc l .typeError := by
      intro src hq
      simp only [assSubscript]
      rw [(sliceUnpack_fields s).1, hs]
      simp only
      generalize adjustIndices _ _ _ _ = adj
      obtain ⟨start, stop, cnt⟩ := adj
      simp only [hq, Bool.not_false, if_true]
    cases v with
    | inl a =>
      have h1 : assSubscript cfg K l (.slice s) (some (.inl a)) = .exc l .typeError := by
        simp only [assSubscript]
        rw [(sliceUnpack_fields s).1, hs]
      simp only [h1, Spec.step, hs, Exact, Agrees, and_self]
    | inr src =>
      by_cases hseq : src.isSequence = true
      · -- sequences
        by_cases hk : k = 1
        · subst hk
          obtain ⟨b1, b2, b3, b4⟩ := slice_bounds cfg K l s src hn hs hseq
          have hsp : ∀ xs : List Int, Spec.spliceAt l i j xs =
              l.take ((i.map (Spec.clampUp l.length)).getD 0).toNat ++ xs ++
              l.drop (((i.map (Spec.clampUp l.length)).getD 0).toNat +
                (((j.map (Spec.clampUp l.length)).getD l.length).toNat -
                  ((i.map (Spec.clampUp l.length)).getD 0).toNat)) := by
            intro xs
            unfold Spec.spliceAt
            dsimp only
            congr 2
            omega
          simp only [Spec.step, hs, if_true, hsp, Exact, true_and]
          generalize ((i.map (Spec.clampUp l.length)).getD 0).toNat = lo at *
          generalize ((j.map (Spec.clampUp l.length)).getD (l.length : Int)).toNat = hi at *
          have hints : ∀ w : List Int, AllFits K w → Spec.allElems K.bits (w.map .int) = .ok w := by
            intro w hw
            unfold Spec.allElems
            rw [(prefix_map_int (b := K.bits) hw).2]
            simp only [List.map_map]
            exact congrArg Except.ok (List.map_id w)
          have hitems : ∀ (s' : Src) (xs : List Arg), lo + (hi - lo) ≤ l.length →
              (∀ cur i, srcItem cfg K cur s' i = xs[i]?.map (toElem K)) →
              (Agrees (put cfg K l s' xs.length lo (hi - lo))
                (match Spec.allElems K.bits xs with
                  | .error e => (l, .error e)
                  | .ok vs => (l.take lo ++ vs ++ l.drop (lo + (hi - lo)), .ok .none)) ↔
                AssignOk K l lo (hi - lo) xs) := by
            intro s' xs hlo hget
            rw [← put_items cfg K s' l xs lo (hi - lo) hf hget hlo]
            unfold Spec.allElems
            cases Spec.firstBad K.bits xs <;> exact Iff.rfl
          have hlo : lo + (hi - lo) ≤ l.length := by omega
          cases src with
          | iter | notIterable => cases hseq
          | seqNoLen xs =>
            simp only [iff_false]
            exact b4 rfl _
          | list xs | tuple xs | seq xs =>
            rw [b3 xs.length rfl]
            exact hitems _ xs hlo (fun _ _ => rfl)
          | same w =>
            have hw : AllFits K w := hp
            have hget : ∀ cur i, srcItem cfg K cur (.same w) i =
                (w.map fun v => (rebox K cfg.py v).1)[i]?.map fun v => (v, none) := by
              intro cur i
              rw [srcItem, List.getElem?_map]
              cases hx : w[i]? with
              | none => rfl
              | some x =>
                have := (rebox_split cfg K (hw x (List.mem_of_getElem? hx))).1
                simp only [Option.map_some]
                rw [← this]
            have hput := put_vals cfg K (.same w) l _ hget lo (hi - lo) hlo
            rw [List.length_map] at hput
            rw [b3 w.length rfl, hput]
            simp only [Spec.items, hints w hw, Agrees, RetIs, and_true]
            rw [List.append_assoc, List.append_assoc, List.append_cancel_left_eq, List.append_cancel_right_eq]
            have : (w.map (fun v => (rebox K cfg.py v).1) = w) ↔ ∀ x ∈ w, (rebox K cfg.py x).1 = x := by
              conv => lhs; rhs; rw [← List.map_id w]
              rw [List.map_inj_left]
              exact Iff.rfl
            rw [this]
            exact forall₂_congr fun x hx => (rebox_split cfg K (hw x hx)).2.2
          | self =>
            rw [b3 l.length rfl, put_self cfg K l lo (hi - lo) hf hlo]
            simp only [Spec.items, hints l hf, Agrees, RetIs, and_true]
            rw [List.append_assoc, List.append_assoc, List.append_cancel_left_eq, List.append_cancel_right_eq,
              self_exact _ l lo (hi - lo) hlo]
            exact and_congr_left fun _ => forall₂_congr fun x hx => (rebox_split cfg K (hf x hx)).2.2
        · rw [slice_step cfg K l s src hs hk hseq]
          constructor
          · intro h
            exfalso
            simp only [Spec.step, hs] at h
            revert h
            cases hit : Spec.items l src with
            | error e => cases src <;> cases hit; cases hseq
            | ok q =>
              obtain ⟨xs, f⟩ := q
              cases f with
              | some e =>
                cases src with
                | iter => cases hseq
                | _ => cases hit
              | none =>
                simp only [if_neg hk]
                unfold Spec.allElems
                cases hb : Spec.firstBad K.bits xs with
                | some e =>
                  simp only [Agrees]
                  rintro ⟨_, h⟩
                  rcases elem_exc hb with h' | h' <;> rw [h'] at h <;> cases h
                | none =>
                  simp only
                  split
                  · exact id
                  · rintro ⟨_, h⟩; cases h
          · intro h
            exfalso
            simp only [Exact, hs] at h
            cases src with
            | iter | notIterable => cases hseq
            | seqNoLen => exact h
            | same | self | list | tuple | seq => exact hk h.1
      · have hseq := Bool.eq_false_iff.2 hseq
        rw [hnoseq src hseq]
        cases src with
        | same | self | list | tuple | seq | seqNoLen => cases hseq
        | notIterable => simp only [Spec.step, hs, Spec.items, Exact, Agrees, and_self]
        | iter xs f =>
          cases f with
          | some e =>
            simp only [Spec.step, hs, Spec.items, Exact, Agrees, true_and]
            exact eq_comm
          | none =>
            simp only [Spec.step, hs, Spec.items, Exact]
            unfold Spec.allElems
            cases hb : Spec.firstBad K.bits xs with
            | some e =>
              simp only [Agrees, true_and, Option.some.injEq]
              exact eq_comm
            | none =>
              simp only [reduceCtorEq, iff_false]
              split
              · exact id
              · split
                · exact id
                · rintro ⟨_, h⟩; cases h

/-- The domain is exact. -/
theorem step_exact (cfg : Cfg) (K : Kind) (l : List Int) (op : Op) (hf : AllFits K l) (hn : (l.length : Int) ≤ ssizeMax)
    (hp : Possible K op) : Agrees (step cfg K l op) (Spec.step K.bits l op) ↔ Exact cfg K l op := by
  cases op with
  | append a => exact append_exact K l a
  | extend s =>
    refine (extendWith_exact K l s .none .none trivial hp).trans ?_
    cases s <;> first | exact Iff.rfl | (simp [Exact])
  | iadd s =>
    refine (extendWith_exact K l s .self .self trivial hp).trans ?_
    cases s <;> first | exact Iff.rfl | (simp [Exact])
  | insert i a => exact ⟨fun _ => trivial, fun _ => insert_ok K l i a⟩
  | pop a => exact pop_exact cfg K l a hf
  | remove a => exact remove_exact cfg K l a hf
  | index a i j => exact index_exact cfg K l a i j
  | count a => exact count_exact cfg K l a hf
  | contains a => exact contains_exact cfg K l a hf
  | get k => exact get_exact cfg K l k hf hn
  | set k v =>
    cases k with
    | idx a => exact set_idx_exact cfg K l a v
    | slice s => exact set_slice_exact cfg K l s v hf hn hp
  | del k => exact del_exact cfg K l k
  | add s => exact add_exact cfg K l s hf
  | mul n => exact mul_exact cfg K l n
  | rmul a => exact rmul_exact cfg K l a
  | imul n => exact imul_exact cfg K l n
  | cmp op s => exact cmp_exact cfg K l op s hf
  | reverse | resize | clear | copy | len | repr =>
    exact ⟨fun _ => trivial, fun _ => step_agrees cfg K l _ hf trivial⟩
  | toList =>
    simp only [step, Spec.step, Agrees, RetIs, true_and, toList, Exact]
    exact boxes_iff cfg K l hf

theorem history_exact (cfg : Cfg) (K : Kind) : ∀ (ops : List Op) (l : List Int), AllFits K l → Short K.bits l ops →
    AllPossible K ops → (AgreesAll (run cfg K l ops) (Spec.run K.bits l ops) ↔ HistoryExact cfg K l ops)
  | [], l, _, _, _ => ⟨fun _ => trivial, fun _ => trivial⟩
  | op :: ops, l, hf, hs, hp => by
    have h1 := step_exact cfg K l op hf hs.1 (hp op (List.mem_cons_self ..))
    have ih := history_exact cfg K ops (Spec.step K.bits l op).1 (spec_fits K l op hf) hs.2
      (fun o ho => hp o (List.mem_cons_of_mem _ ho))
    rw [run, Spec.run, AgreesAll, HistoryExact, h1]
    refine and_congr_right fun h => ?_
    rw [agrees_state (h1.2 h)]
    exact ih

end Verif.ArrayList
