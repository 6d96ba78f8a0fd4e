import Verif.Lemmas.EvenObj
import Verif.Lemmas.ExactObjLinked
import Verif.Spec.EvenObjLinked

/-! # Reference counts after any call of an ObjectLinkedList -/

namespace Verif.ObjLinked

open OObj Heap
open ObjArray (even_does even_of even_exc even_same)

variable {ext : Obj → Nat} {s : OLState}

theorem elems_mono (src : OSrc) {v w : List Obj} (h : v.length ≤ w.length) :
    (src.elems v).length ≤ (src.elems w).length := by
  cases src <;> first | exact Nat.le_refl _ | exact h

theorem shrink_len (p n : Nat) : ∀ s s' : OLState, shrink p n s = .ok s' → 0 < n → p + n ≤ (vec s).length := by
  induction n with
  | zero => intro s s' _ h; omega
  | succ n ih =>
    intro s s' h _
    rw [shrink] at h
    cases hp : (vec s)[p]? with
    | none => simp [hp] at h
    | some d =>
      have hlt : p < (vec s).length := (List.getElem?_eq_some_iff.1 hp).1
      simp only [hp] at h
      cases hd : s.heap.decref d with
      | error u => simp [hd] at h
      | ok h1 =>
        simp only [hd] at h
        by_cases hn : 0 < n
        · have := ih _ _ h hn
          have e : (vec ⟨s.list.erase p, h1⟩).length = (vec s).length - 1 := by
            simp only [vec, LState.vals_erase]
            exact List.length_eraseIdx_of_lt hlt
          rw [e] at this
          omega
        · omega

theorem grow_any (src : OSrc) (n : Nat) : ∀ (i p : Nat) (s : OLState), p ≤ (vec s).length →
    i + n ≤ (src.elems (vec s)).length →
    ∃ s', grow src n i p s = .ok s' ∧ (vec s').length = (vec s).length + n ∧
      Adj s.heap s'.heap (fun x => ((vec s').count x : Nat) - ((vec s).count x : Nat)) := by
  induction n with
  | zero =>
    intro i p s _ _
    exact ⟨s, rfl, rfl, (Adj.refl _).congr (by simp)⟩
  | succ n ih =>
    intro i p s hp hx
    obtain ⟨o, ho⟩ : ∃ o, (src.elems (vec s))[i]? = some o := ⟨_, List.getElem?_eq_getElem (by omega)⟩
    have a1 := gain_adj s.heap o
    have hv1 : vec ⟨s.list.insert p o, s.heap.gain o⟩ = (vec s).take p ++ o :: (vec s).drop p := by simp [vec]
    have hl1 : (vec ⟨s.list.insert p o, s.heap.gain o⟩).length = (vec s).length + 1 := by
      rw [hv1]; simp; omega
    obtain ⟨s', e2, v2, a2⟩ := ih (i + 1) (p + 1) ⟨s.list.insert p o, s.heap.gain o⟩ (by omega)
      (by have := elems_mono src (v := vec s) (w := vec ⟨s.list.insert p o, s.heap.gain o⟩) (by omega); omega)
    refine ⟨s', ?_, by omega, ?_⟩
    · rw [grow, ho]
      simp only
      rw [if_pos (by rw [size_vec]; exact hp)]
      exact e2
    · refine (a1.trans a2).congr fun x => ?_
      have c : (vec s).count x = ((vec s).take p).count x + ((vec s).drop p).count x := by
        rw [← List.count_append, List.take_append_drop]
      have c1 : ((vec ⟨s.list.insert p o, s.heap.gain o⟩).count x : Int) =
          ((vec s).take p).count x + (([o].count x : Nat) + ((vec s).drop p).count x) := by
        rw [hv1, List.count_append, Int.natCast_add, count_cons_int]
      omega

theorem overwrite_any (src : OSrc) (start step : Int) (n : Nat) : ∀ (i : Nat) (s : OLState),
    Covered ext s.heap (vec s) → i + n ≤ (src.elems (vec s)).length →
    ((∃ s', overwrite src start step n i s = .ok s') ↔
      ∀ t : Nat, t < n → 0 ≤ start + ((i + t : Nat) : Int) * step ∧
        start + ((i + t : Nat) : Int) * step < (vec s).length) ∧
    ∀ s', overwrite src start step n i s = .ok s' →
      Adj s.heap s'.heap (fun x => ((vec s').count x : Nat) - ((vec s).count x : Nat)) := by
  induction n with
  | zero =>
    intro i s _ _
    exact ⟨⟨fun _ t ht => absurd ht (by omega), fun _ => ⟨s, rfl⟩⟩, fun s' h => by
      cases h; exact (Adj.refl _).congr (by simp)⟩
  | succ n ih =>
    intro i s hc hx
    obtain ⟨o, ho⟩ : ∃ o, (src.elems (vec s))[i]? = some o := ⟨_, List.getElem?_eq_getElem (by omega)⟩
    by_cases hq : 0 ≤ start + (i : Int) * step ∧ start + (i : Int) * step < (vec s).length
    · obtain ⟨b1, b2⟩ := hq
      generalize hqe : start + (i : Int) * step = q at b1 b2
      have hqn : q.toNat < (vec s).length := by omega
      have a1 := gain_adj s.heap o
      have hlive : (s.heap.gain o).imm (vec s)[q.toNat] = true ∨ 0 < (s.heap.gain o).rc (vec s)[q.toNat] := by
        rw [a1.1]
        by_cases him : s.heap.imm (vec s)[q.toNat] = true
        · exact .inl him
        · right
          have q1 := a1.2 _ (by simpa using him)
          have q2 := (hc.live (List.getElem_mem hqn)).resolve_left him
          dsimp only at q1
          omega
      obtain ⟨h1, e2, a2⟩ := decref_ok hlive
      have hv1 : vec ⟨s.list.assign q.toNat o, h1⟩ = (vec s).set q.toNat o := by simp [vec]
      have hl1 : (vec ⟨s.list.assign q.toNat o, h1⟩).length = (vec s).length := by rw [hv1, List.length_set]
      have hcs := fun x => count_set (vec s) q.toNat o x hqn
      have a12 : Adj s.heap h1 (fun x => ((vec ⟨s.list.assign q.toNat o, h1⟩).count x : Nat) - ((vec s).count x : Nat)) :=
        (a1.trans a2).congr fun x => by have := hcs x; rw [hv1]; omega
      obtain ⟨i1, i2⟩ := ih (i + 1) ⟨s.list.assign q.toNat o, h1⟩ (adj_covered hc a12)
        (by have := elems_mono src (v := vec s) (w := vec ⟨s.list.assign q.toNat o, h1⟩) (by omega); omega)
      have hstep : overwrite src start step (n + 1) i s = overwrite src start step n (i + 1) ⟨s.list.assign q.toNat o, h1⟩ := by
        rw [overwrite, ho]
        simp only [hqe]
        rw [if_neg (by omega), size_vec, listAt_lt (by omega)]
        simp only
        rw [List.getElem?_eq_getElem hqn]
        simp only [e2]
      rw [hstep]
      constructor
      · rw [i1, hl1]
        constructor
        · intro h t ht
          cases t with
          | zero => rw [Nat.add_zero, hqe]; exact ⟨b1, b2⟩
          | succ t =>
            have := h t (by omega)
            rwa [show i + 1 + t = i + (t + 1) by omega] at this
        · intro h t ht
          have := h (t + 1) (by omega)
          rwa [show i + 1 + t = i + (t + 1) by omega]
      · intro s' h
        refine (a12.trans (i2 s' h)).congr fun x => ?_
        omega
    · have hno : ∀ s', overwrite src start step (n + 1) i s ≠ .ok s' := by
        intro s' h
        rw [overwrite, ho] at h
        simp only at h
        by_cases hneg : start + (i : Int) * step < 0
        · rw [if_pos hneg] at h; cases h
        · rw [if_neg hneg, size_vec] at h
          have hbig : (vec s).length ≤ (start + (i : Int) * step).toNat := by omega
          have hl : listAt (vec s).length (start + (i : Int) * step).toNat = .ok (vec s).length := by
            unfold listAt
            rw [if_pos hbig]
          rw [hl] at h
          simp at h
      refine ⟨⟨fun ⟨s', h⟩ => absurd h (hno s'), fun h => absurd (h 0 (by omega)) ?_⟩, fun s' h => absurd h (hno s')⟩
      rw [Nat.add_zero]
      exact hq

/-- A slice assignment either runs into something undefined or keeps the counts right. -/
theorem replace_any (src : OSrc) (start stop step : Int) (n m : Nat) (hc : Covered ext s.heap (vec s))
    (hm : m ≤ (src.elems (vec s)).length) (hnl : n ≤ (vec s).length)
    (hpos : ∀ t : Nat, t < n → 0 ≤ start + t * step ∧ start + t * step < (vec s).length) :
    ((∃ s', replace src start stop step n m s = .ok s') ↔
      (m < n → start + m * step + (n - m : Nat) ≤ (vec s).length) ∧
      ∀ t : Nat, t < m → 0 ≤ start + t * step ∧ start + t * step < ((vec s).length : Int) - n + m) ∧
    ∀ s', replace src start stop step n m s = .ok s' →
      Adj s.heap s'.heap (fun x => ((vec s').count x : Nat) - ((vec s).count x : Nat)) := by
  -- what comes after the list has its new length
  have after : ∀ s1 : OLState, ((vec s1).length : Int) = ((vec s).length : Int) - n + m →
      (src.elems (vec s)).length ≤ (src.elems (vec s1)).length ∨ m ≤ (src.elems (vec s1)).length →
      Adj s.heap s1.heap (fun x => ((vec s1).count x : Nat) - ((vec s).count x : Nat)) →
      ((∃ s', overwrite src start step m 0 s1 = .ok s') ↔
        ∀ t : Nat, t < m → 0 ≤ start + t * step ∧ start + t * step < ((vec s).length : Int) - n + m) ∧
      ∀ s', overwrite src start step m 0 s1 = .ok s' →
        Adj s.heap s'.heap (fun x => ((vec s').count x : Nat) - ((vec s).count x : Nat)) := by
    intro s1 hl he ha
    obtain ⟨i1, i2⟩ := overwrite_any src start step m 0 s1 (adj_covered hc ha) (by omega)
    simp only [Nat.zero_add, hl] at i1
    refine ⟨i1, fun s' h => (ha.trans (i2 s' h)).congr fun x => ?_⟩
    omega
  unfold replace
  simp only
  by_cases h1 : m < n
  · rw [if_pos (by omega)]
    obtain ⟨p1, p2⟩ := hpos m h1
    rw [if_neg (by omega), size_vec, listAt_lt (by omega)]
    simp only
    rw [show ((n : Int) - m).toNat = n - m by omega]
    by_cases hfit : start + m * step + (n - m : Nat) ≤ (vec s).length
    · obtain ⟨s1, e1, v1, a1⟩ := shrink_ok (start + m * step).toNat (n - m) s (by omega) hc
      rw [e1]
      simp only [Int.toNat_natCast]
      have hl1 : (vec s1).length = (vec s).length - (n - m) := by
        rw [v1, List.length_append, List.length_take, List.length_drop]; omega
      obtain ⟨j1, j2⟩ := after s1 (by omega) (by
        right
        cases src with
        | self => show m ≤ (vec s1).length; omega
        | _ => exact hm) a1
      refine ⟨j1.trans ⟨fun h => ⟨fun _ => hfit, h⟩, fun h => h.2⟩, j2⟩
    · have hno : ∀ s1, shrink (start + m * step).toNat (n - m) s ≠ .ok s1 := by
        intro s1 h
        have := shrink_len _ _ _ _ h (by omega)
        omega
      cases hs : shrink (start + m * step).toNat (n - m) s with
      | ok s1 => exact absurd hs (hno s1)
      | error u =>
        exact ⟨⟨fun ⟨s', h⟩ => (nomatch h), fun h => absurd (h.1 h1) hfit⟩, fun s' h => (nomatch h)⟩
  · rw [if_neg (by omega)]
    by_cases h2 : n < m
    · rw [if_pos (by omega)]
      obtain ⟨p, hp1, hp2⟩ : ∃ p, (if stop < 0 then Except.ok s.list.size else listAt s.list.size stop.toNat) = .ok p ∧
          p ≤ (vec s).length := by
        by_cases hst : stop < 0
        · exact ⟨_, by rw [if_pos hst], by rw [size_vec]; exact Nat.le_refl _⟩
        · rw [if_neg hst, size_vec]
          by_cases hle : stop.toNat ≤ (vec s).length
          · exact ⟨_, listAt_lt hle, hle⟩
          · refine ⟨(vec s).length, ?_, Nat.le_refl _⟩
            unfold listAt
            rw [if_pos (by omega)]
      rw [hp1]
      simp only
      rw [show ((m : Int) - n).toNat = m - n by omega]
      simp only [Int.toNat_natCast]
      obtain ⟨s1, e1, v1, a1⟩ := grow_any src (m - n) n p s hp2 (by omega)
      rw [e1]
      simp only
      obtain ⟨j1, j2⟩ := after s1 (by omega) (.inl (elems_mono src (by omega))) a1
      exact ⟨j1.trans ⟨fun h => ⟨fun h' => absurd h' h1, h⟩, fun h => h.2⟩, j2⟩
    · rw [if_neg (by omega)]
      simp only [Int.toNat_natCast]
      obtain ⟨j1, j2⟩ := after s (by omega) (.inr hm) ((Adj.refl _).congr (by simp))
      exact ⟨j1.trans ⟨fun h => ⟨fun h' => absurd h' h1, h⟩, fun h => h.2⟩, j2⟩

/-- The first position of a slice. -/
theorem first_eq {n : Nat} (hn : (n : Int) ≤ ssizeMax) {i j : Option Int} {k : Int} (hk : k ≠ 0) {start stop cnt : Int}
    (h : adjustIndices n ((i.map clampSsize).getD (if k < 0 then ssizeMax else 0))
      ((j.map clampSsize).getD (if k < 0 then -(2 ^ 63) else ssizeMax))
      (if clampSsize k < -ssizeMax then -ssizeMax else clampSsize k) = (start, stop, cnt)) : start = first n i k := by
  obtain ⟨-, -, p3⟩ := adjust_positions hn hk h
  unfold first
  by_cases hp : 0 < k
  · rw [if_pos hp]; exact (p3 hp).1
  · rw [if_neg hp]
    have hneg : (if clampSsize k < -ssizeMax then -ssizeMax else clampSsize k) < 0 := by
      unfold clampSsize
      have e1 : ssizeMax = 9223372036854775807 := by decide
      have e2 : (2 : Int) ^ 63 = 9223372036854775808 := by decide
      simp only [e1, e2]
      omega
    have h1 := congrArg (fun x => x.1) h
    simp only [adjustIndices, hneg, if_true] at h1
    rw [← h1]
    have e1 : ssizeMax = 9223372036854775807 := by decide
    have e2 : (2 : Int) ^ 63 = 9223372036854775808 := by decide
    cases i with
    | none =>
      simp only [Option.map_none, Option.getD_none, if_pos (show k < 0 by omega)]
      omega
    | some i =>
      simp only [Option.map_some, Option.getD_some, Spec.clampDown, Spec.fromFront, clampSsize, e1, e2] at *
      omega

/-- A step beyond the machine word leads out of every list, like the machine's largest. -/
theorem clamp_reach {lo k k' : Int} {len : Int} (hlen : len ≤ ssizeMax) (hlo : -1 ≤ lo) (hlo' : k < 0 → lo < ssizeMax)
    (hlo2 : 0 < k → 0 ≤ lo)
    (hk' : (if clampSsize k < -ssizeMax then -ssizeMax else clampSsize k) = k') (t : Nat) :
    (0 ≤ lo + t * k' ∧ lo + t * k' < len) ↔ (0 ≤ lo + t * k ∧ lo + t * k < len) := by
  have hkk : k' = k ∨ (ssizeMax ≤ k' ∧ ssizeMax < k) ∨ (k' ≤ -ssizeMax ∧ k < -ssizeMax) := by
    subst hk'; unfold clampSsize ssizeMax
    split <;> split <;> (try split) <;> simp at * <;> omega
  have e1 : ssizeMax = 9223372036854775807 := by decide
  rcases hkk with rfl | ⟨h1, h2⟩ | ⟨h1, h2⟩
  · exact Iff.rfl
  · cases t with
    | zero => simp
    | succ t =>
      have m1 : k' ≤ ((t + 1 : Nat) : Int) * k' := by
        have := Int.mul_le_mul_of_nonneg_right (show (1 : Int) ≤ ((t + 1 : Nat) : Int) by omega) (show 0 ≤ k' by omega)
        omega
      have m2 : k ≤ ((t + 1 : Nat) : Int) * k := by
        have := Int.mul_le_mul_of_nonneg_right (show (1 : Int) ≤ ((t + 1 : Nat) : Int) by omega) (show 0 ≤ k by omega)
        omega
      have := hlo2 (by omega)
      generalize ((t + 1 : Nat) : Int) * k' = a at *
      generalize ((t + 1 : Nat) : Int) * k = b at *
      omega
  · cases t with
    | zero => simp
    | succ t =>
      have m1 : ((t + 1 : Nat) : Int) * k' ≤ k' := by
        have := Int.mul_le_mul_of_nonpos_right (show (1 : Int) ≤ ((t + 1 : Nat) : Int) by omega) (show k' ≤ 0 by omega)
        omega
      have m2 : ((t + 1 : Nat) : Int) * k ≤ k := by
        have := Int.mul_le_mul_of_nonpos_right (show (1 : Int) ≤ ((t + 1 : Nat) : Int) by omega) (show k ≤ 0 by omega)
        omega
      have := hlo' (by omega)
      generalize ((t + 1 : Nat) : Int) * k' = a at *
      generalize ((t + 1 : Nat) : Int) * k = b at *
      omega

theorem first_range (n : Nat) (i : Option Int) {k : Int} (hk : k ≠ 0) :
    -1 ≤ first n i k ∧ first n i k ≤ n ∧ (k < 0 → first n i k < n) ∧ (0 < k → 0 ≤ first n i k) := by
  unfold first
  by_cases hp : 0 < k
  · rw [if_pos hp]
    cases i with
    | none => simp only [Option.map_none, Option.getD_none]; omega
    | some i => simp only [Option.map_some, Option.getD_some, Spec.clampUp, Spec.fromFront]; omega
  · rw [if_neg hp]
    cases i with
    | none => simp only [Option.map_none, Option.getD_none]; omega
    | some i => simp only [Option.map_some, Option.getD_some, Spec.clampDown, Spec.fromFront]; omega

theorem positions_len (n : Nat) (i j : Option Int) (k : Int) : (Spec.positions n i j k).length ≤ n := by
  unfold Spec.positions
  simp only
  split
  · exact Nat.le_trans (List.length_filter_le _ _) (by simp)
  · rw [List.length_reverse]
    exact Nat.le_trans (List.length_filter_le _ _) (by simp)

theorem size_of {src : OSrc} {m : Nat} {l : List Obj} (h : sizeOf l src = some m) :
    src.isSequence = true ∧ src.size l = m ∧ m = (src.elems l).length := by
  cases src <;> simp [sizeOf] at h <;> subst h <;> simp [OSrc.isSequence, OSrc.size, OSrc.elems]

theorem size_none {src : OSrc} {l : List Obj} (h : sizeOf l src = none) :
    src.isSequence = false ∨ src.size l < 0 := by
  cases src <;> simp [sizeOf] at h <;> simp [OSrc.isSequence, OSrc.size]

theorem setSlice_even (hb : Balanced ext s.heap (vec s)) (hn : ((vec s).length : Int) ≤ ssizeMax) (sl : SliceArg)
    (src : OSrc) (hbd : Bounded (vec s) (.setSlice sl src)) (strict : Bool) (imm : Obj → Bool) :
    Even ext (view (setSlice s sl src)) ↔ Keeps strict imm (vec s) (.setSlice sl src) := by
  have hc := ObjArray.Balanced.covered hb
  obtain ⟨u1, u2⟩ := sliceUnpack_fields sl
  have same : ∀ e, Even ext (view (.exc s e)) := fun e => even_exc (s := arr s) e hb
  cases hf : Spec.fields sl with
  | error e =>
    rw [hf] at u1
    simp only at u1
    refine iff_of_true ?_ (fun i j k m h => absurd h (by rw [hf]; simp))
    simp only [setSlice, u1]
    exact same e
  | ok f =>
    obtain ⟨i, j, k⟩ := f
    have hk0 := u2 i j k hf
    rw [hf] at u1
    simp only at u1
    cases hm : sizeOf (vec s) src with
    | none =>
      refine iff_of_true ?_ (fun i j k m _ h => absurd h (by rw [hm]; simp))
      have : setSlice s sl src = .exc s .typeError := by
        simp only [setSlice, u1]
        rcases size_none hm with h | h
        · rw [h]; rfl
        · rw [if_pos h, ite_self]
      rw [this]
      exact same _
    | some m =>
      obtain ⟨z1, z2, z3⟩ := size_of hm
      have hbig := hbd m hm
      have hkeep : Keeps strict imm (vec s) (.setSlice sl src) ↔ SliceKeeps (vec s).length m i j k := by
        constructor
        · exact fun h => h i j k m hf hm
        · intro h i' j' k' m' h1 h2
          rw [hf] at h1; rw [hm] at h2
          cases h1; cases h2
          exact h
      rw [hkeep]
      simp only [setSlice, u1, z1, z2, Bool.not_true, Bool.false_eq_true, if_false, size_vec]
      rw [if_neg (by omega)]
      generalize hadj : adjustIndices (vec s).length _ _ _ = adj
      obtain ⟨start, stop, cnt⟩ := adj
      obtain ⟨p1, p2, p3⟩ := adjust_positions hn hk0 hadj
      have hst := first_eq hn hk0 hadj
      simp only
      have hreach := fun len h1 t => clamp_reach (lo := start) (k := k) (len := len) h1 (by
        have := first_range (vec s).length i hk0; omega) (by
        have := first_range (vec s).length i hk0; omega) (by
        have := first_range (vec s).length i hk0; omega) rfl t
      have hkk : ∀ t : Nat, (t : Int) < cnt →
          start + t * (if clampSsize k < -ssizeMax then -ssizeMax else clampSsize k) = start + t * k := by
        intro t ht
        cases t with
        | zero => simp
        | succ t =>
          have hkk : (if clampSsize k < -ssizeMax then -ssizeMax else clampSsize k) = k ∨
              (ssizeMax ≤ (if clampSsize k < -ssizeMax then -ssizeMax else clampSsize k) ∧ ssizeMax < k) ∨
              ((if clampSsize k < -ssizeMax then -ssizeMax else clampSsize k) ≤ -ssizeMax ∧ k < -ssizeMax) := by
            unfold clampSsize ssizeMax
            split <;> split <;> (try split) <;> simp at * <;> omega
          have q := p2 (t + 1) ht
          have r := first_range (vec s).length i hk0
          rw [← hst] at r
          generalize (if clampSsize k < -ssizeMax then -ssizeMax else clampSsize k) = k' at *
          rcases hkk with rfl | ⟨h1, h2⟩ | ⟨h1, h2⟩
          · rfl
          · exfalso
            have e1 : ssizeMax = 9223372036854775807 := by decide
            have m1 : k' ≤ ((t + 1 : Nat) : Int) * k' := by
              have := Int.mul_le_mul_of_nonneg_right (show (1 : Int) ≤ ((t + 1 : Nat) : Int) by omega)
                (show 0 ≤ k' by omega)
              omega
            generalize ((t + 1 : Nat) : Int) * k' = a at *
            omega
          · exfalso
            have e1 : ssizeMax = 9223372036854775807 := by decide
            have m1 : ((t + 1 : Nat) : Int) * k' ≤ k' := by
              have := Int.mul_le_mul_of_nonpos_right (show (1 : Int) ≤ ((t + 1 : Nat) : Int) by omega)
                (show k' ≤ 0 by omega)
              omega
            generalize ((t + 1 : Nat) : Int) * k' = a at *
            omega
      have hcnt0 : 0 ≤ cnt := adjust_nonneg hadj
      obtain ⟨n, rfl⟩ : ∃ n : Nat, cnt = n := ⟨cnt.toNat, by omega⟩
      have hpl : (Spec.positions (vec s).length i j k).length = n := by rw [p1]; simp
      have hnl : n ≤ (vec s).length := by
        rw [← hpl]
        exact positions_len _ _ _ _
      generalize hstep : (if clampSsize k < -ssizeMax then -ssizeMax else clampSsize k) = step at *
      obtain ⟨r1, r2⟩ := replace_any (ext := ext) (s := s) src start stop step n m hc (by omega) hnl
        (fun t ht => p2 t (by omega))
      have hconv : ((m < n → start + m * step + (n - m : Nat) ≤ (vec s).length) ∧
          ∀ t : Nat, t < m → 0 ≤ start + t * step ∧ start + t * step < ((vec s).length : Int) - n + m) ↔
          SliceKeeps (vec s).length m i j k := by
        unfold SliceKeeps
        simp only [hpl, ← hst]
        refine and_congr ⟨fun h hlt => ?_, fun h hlt => ?_⟩ (forall_congr' fun t => imp_congr_right fun _ => ?_)
        · rw [← hkk m (by omega)]; exact h hlt
        · rw [hkk m (by omega)]; exact h hlt
        · exact hreach _ (by omega) t
      rw [← hconv, ← r1]
      cases hr : replace src start stop step n m s with
      | error u => exact iff_of_false id (fun ⟨s', h⟩ => (nomatch h))
      | ok s' =>
        refine iff_of_true ?_ ⟨s', rfl⟩
        refine even_does (s := arr s) (res := (vec s', .ok .none)) hb ⟨s'.heap, rfl, (r2 s' hr).congr fun x => ?_⟩
        simp only [delta, Spec.carried, List.count_nil]
        omega

theorem step_even (H : OHost) (strict : Bool) (hb : Balanced ext s.heap (vec s))
    (hn : ((vec s).length : Int) ≤ ssizeMax) (op : OOp) (hbd : Bounded (vec s) op) (hh : Held ext s.heap op) :
    Even ext (view (step H strict s op)) ↔ Keeps strict s.heap.imm (vec s) op := by
  have hc := ObjArray.Balanced.covered hb
  have base : ∀ op, Held ext s.heap op → (Even ext (ObjArray.step cfg0 H 1 (arr s) op) ↔
      ObjArray.Keeps H s.heap.imm (vec s) op) := fun op h =>
    ObjArray.step_even (s := arr s) cfg0 H 1 (by omega) hb hn op h
  have ok : ∀ {op lk}, LDoes (step H strict s op) s (Spec.ostep H (vec s) op) lk → lk = [] →
      Even ext (view (step H strict s op)) := fun h e => even_does (s := arr s) hb (e ▸ h)
  cases op with
  | append o => rw [step, append_view]; exact base (.append o) hh
  | insert i o => rw [step, insert_view]; exact base (.insert i o) hh
  | remove o => rw [step, remove_view]; exact base (.remove o) hh
  | index o i j => rw [step, index_view]; exact base (.index o i j) hh
  | count o => exact base (.count o) hh
  | contains o => rw [step, contains_view]; exact base (.contains o) hh
  | get k => rw [step, subscript_view]; cases k <;> exact base (.get _) hh
  | setItem a o => rw [step, setIdx_view]; exact base (.setItem a o) hh
  | del k => rw [step, del_view]; cases k <;> exact base (.del _) hh
  | add src => rw [step, add_view]; exact base (.add src) hh
  | mul n => rw [step, mul_view]; exact base (.mul n) hh
  | rmul a => rw [step, rmul_view]; exact base (.rmul a) hh
  | cmp op src => rw [step, compare_view]; exact base (.cmp op src) hh
  | imul n =>
    rw [show Even ext (view (step H strict s (.imul n))) ↔ _ from even_of (s := arr s) hb (imul_does hc n H)]
    simp only [leaked, Keeps]
    by_cases h : n ≤ 0
    · rw [if_pos h]
      exact ⟨.inr, fun h' => h'.resolve_left (by omega)⟩
    · rw [if_neg h]
      exact iff_of_true (fun _ h => absurd h List.not_mem_nil) (.inl (by omega))
  | setSlice sl src => exact setSlice_even hb hn sl src hbd _ _
  | resize a => exact iff_of_true (even_exc (s := arr s) _ hb) trivial
  | reverse => exact iff_of_true (ok (step_does H strict hc (op := .reverse) trivial hh) rfl) trivial
  | clear => exact iff_of_true (ok (step_does H strict hc (op := .clear) trivial hh) rfl) trivial
  | copy => exact iff_of_true (ok (step_does H strict hc (op := .copy) trivial hh) rfl) trivial
  | toList => exact iff_of_true (ok (step_does H strict hc (op := .toList) trivial hh) rfl) trivial
  | len => exact iff_of_true (ok (step_does H strict hc (op := .len) trivial hh) rfl) trivial
  | extend src =>
    by_cases hs : src = .self
    · subst hs
      cases strict with
      | true => exact iff_of_false id (by simp [Keeps])
      | false =>
        rw [show Even ext (view (step H false s (.extend .self))) ↔ _ from
          even_of (s := arr s) hb (extend_self_does hc H)]
        simp [Keeps]
    · exact iff_of_true (ok (extend_does strict hc hs hh H) rfl) (.inl hs)
  | iadd src =>
    by_cases hs : src = .self
    · subst hs
      obtain ⟨h', e, a⟩ := increfs_ok (h := s.heap) (xs := vec s) (fun o ho => hc.live ho)
      cases strict with
      | true => exact iff_of_false (by simp only [step, iadd, e]; exact id) (by simp [Keeps])
      | false =>
        refine iff_of_true ?_ (.inr rfl)
        simp only [step, iadd, e, Bool.false_eq_true, if_false]
        refine even_does (s := arr s) (res := (vec s ++ vec s, .ok .none)) hb ⟨h', ?_, a.congr fun x => ?_⟩
        · simp [view, outOf, withHeap, vec]
        · simp only [delta, Spec.carried, List.count_append, List.count_nil]
          omega
    · rw [step, iadd_view strict hs]
      exact iff_of_true ((base (.iadd src) hh).2 hs) (.inl hs)
  | pop a =>
    cases a with
    | none =>
      rw [step, pop_view_none]
      exact iff_of_true ((base (.pop none) hh).2 trivial) (fun v h => (nomatch h))
    | some a =>
      by_cases hp : ∀ v, a = .int v → Spec.position (vec s).length v = none
      · rw [step, pop_view_bad a hp]
        exact iff_of_true ((base (.pop (some a)) hh).2 trivial) (fun v h => hp v (by simpa using h))
      · refine iff_of_false ?_ (fun h => hp fun v hv => h v (by rw [hv]))
        obtain ⟨v, h1⟩ := Classical.not_forall.1 hp
        obtain ⟨rfl, hpos⟩ := Classical.not_imp.1 h1
        have hb : -((vec s).length : Int) ≤ v ∧ v < (vec s).length := by
          unfold Spec.position at hpos
          split at hpos
          · omega
          · split at hpos
            · omega
            · exact absurd rfl hpos
        have hfit : FitsS 64 v := by
          have e1 : ssizeMax = 9223372036854775807 := by decide
          rw [e1] at hn
          exact (fits64 v).2 (by omega)
        simp only [step, pop]
        cases hl : (vec s).getLast? with
        | none =>
          rw [List.getLast?_eq_none_iff] at hl
          rw [hl] at hb
          simp at hb
          omega
        | some x =>
          simp only [asSsize, hfit, if_true]
          rw [if_neg (by rw [size_vec]; split <;> omega)]
          split
          · exact id
          · split <;> exact id

end Verif.ObjLinked
