import Verif.Lemmas.ObjLinkedList
import Verif.Spec.ExactObjLinked

/-! Helper lemmas: slice assignment of an ObjectLinkedList whose value is the list itself. -/

namespace Verif.ObjLinked

open Heap

variable {ext : Obj → Nat}

/-- Growing with items of the list that grows. -/
theorem grow_self (n : Nat) : ∀ (i p : Nat) (s : OLState), i ≤ p → p ≤ (vec s).length → i < (vec s).length →
    ∃ s' ins, grow .self n i p s = .ok s' ∧ vec s' = (vec s).take p ++ ins ++ (vec s).drop p ∧ ins.length = n ∧
      (i < p → ∀ t, t < n → (vec s')[p + t]? = (vec s')[i + t]?) ∧
      (i = p → ∀ x ∈ ins, (vec s)[p]? = some x) ∧
      Adj s.heap s'.heap (fun x => ((vec s').count x : Nat) - ((vec s).count x : Nat)) := by
  induction n with
  | zero =>
    intro i p s _ _ _
    exact ⟨s, [], rfl, by simp, rfl, fun _ t ht => absurd ht (by omega), fun _ x hx => by simp at hx,
      (Adj.refl _).congr (by simp)⟩
  | succ n ih =>
    intro i p s hip hp hi
    have a1 := gain_adj s.heap (vec s)[i]
    have hv1 : vec ⟨s.list.insert p (vec s)[i], s.heap.gain (vec s)[i]⟩ =
        (vec s).take p ++ (vec s)[i] :: (vec s).drop p := by
      simp [vec]
    have hl : ((vec s).take p).length = p := by simp; omega
    obtain ⟨s', ins, e2, v2, l2, g2, c2, a2⟩ := ih (i + 1) (p + 1)
      ⟨s.list.insert p (vec s)[i], s.heap.gain (vec s)[i]⟩ (by omega) (by rw [hv1]; simp; omega) (by rw [hv1]; simp; omega)
    have t1 : ((vec s).take p ++ (vec s)[i] :: (vec s).drop p).take (p + 1) = (vec s).take p ++ [(vec s)[i]] := by
      rw [List.take_append, hl, List.take_of_length_le (by omega), show p + 1 - p = 1 by omega]
      simp
    have t2 : ((vec s).take p ++ (vec s)[i] :: (vec s).drop p).drop (p + 1) = (vec s).drop p := by
      rw [List.drop_append, hl, List.drop_eq_nil_of_le (by omega), show p + 1 - p = 1 by omega]
      simp
    have hv : vec s' = (vec s).take p ++ ((vec s)[i] :: ins) ++ (vec s).drop p := by
      rw [v2, hv1, t1, t2]
      simp
    refine ⟨s', (vec s)[i] :: ins, ?_, hv, by simp [l2], ?_, ?_, ?_⟩
    · rw [grow]
      simp only [OSrc.elems]
      rw [List.getElem?_eq_getElem hi]
      simp only
      rw [if_pos (by rw [size_vec]; exact hp)]
      exact e2
    · intro hlt t ht
      cases t with
      | zero =>
        rw [hv]
        simp only [Nat.add_zero, List.append_assoc]
        rw [List.getElem?_append_right (by omega), hl, List.getElem?_append_left (l₁ := (vec s).take p) (by omega),
          List.getElem?_take]
        simp [hlt, List.getElem?_eq_getElem hi]
      | succ t =>
        have := g2 (by omega) t (by omega)
        rwa [show p + 1 + t = p + (t + 1) by omega, show i + 1 + t = i + (t + 1) by omega] at this
    · intro heq x hx
      subst heq
      rcases List.mem_cons.1 hx with rfl | hx
      · exact List.getElem?_eq_getElem hi
      · have := c2 rfl x hx
        rw [hv1, List.getElem?_append_right (by omega), hl, show i + 1 - i = 1 by omega] at this
        simpa using this
    · refine (a1.trans a2).congr fun x => ?_
      have c : ((vec ⟨s.list.insert p (vec s)[i], s.heap.gain (vec s)[i]⟩).count x : Int) =
          ([(vec s)[i]].count x : Nat) + ((vec s).count x : Nat) := by
        rw [hv1]
        have c2 := congrArg (fun z => (z.count x : Int)) (List.take_append_drop p (vec s))
        rw [List.count_append, List.count_cons]
        simp only [List.count_append] at c2
        simp only [List.count_cons, List.count_nil]
        omega
      omega

/-- Overwriting with items of the list that is overwritten: what every write keeps holds in the end. -/
theorem overwrite_self (start step : Int) (I : Nat → List Obj → Prop) (n : Nat)
    (hI : ∀ i v o, I i v → v[i]? = some o → i < n → I (i + 1) (v.set (start + (i : Int) * step).toNat o)) (m : Nat) :
    ∀ (i : Nat) (s : OLState), i + m = n → n ≤ (vec s).length → Covered ext s.heap (vec s) → I i (vec s) →
    (∀ t : Nat, t < n → 0 ≤ start + (t : Int) * step ∧ start + (t : Int) * step < (vec s).length) →
    ∃ s', overwrite .self start step m i s = .ok s' ∧ I n (vec s') ∧ (vec s').length = (vec s).length ∧
      Adj s.heap s'.heap (fun x => ((vec s').count x : Nat) - ((vec s).count x : Nat)) := by
  induction m with
  | zero =>
    intro i s him _ _ hi _
    rw [Nat.add_zero] at him
    exact ⟨s, rfl, him ▸ hi, rfl, (Adj.refl _).congr (by simp)⟩
  | succ m ih =>
    intro i s him hnl hc hi hidx
    have hlt : i < (vec s).length := by omega
    obtain ⟨b1, b2⟩ := hidx i (by omega)
    have hInext := hI i (vec s) (vec s)[i] hi (List.getElem?_eq_getElem hlt) (by omega)
    generalize hq : start + (i : Int) * step = q at b1 b2 hInext
    have hqn : q.toNat < (vec s).length := by omega
    have a1 := gain_adj s.heap (vec s)[i]
    have hlive : (s.heap.gain (vec s)[i]).imm (vec s)[q.toNat] = true ∨
        0 < (s.heap.gain (vec s)[i]).rc (vec s)[q.toNat] := by
      rw [a1.1]
      by_cases hm : s.heap.imm (vec s)[q.toNat] = true
      · exact .inl hm
      · right
        have q1 := a1.2 _ (by simpa using hm)
        have q2 := (hc.live (List.getElem_mem hqn)).resolve_left hm
        dsimp only at q1
        omega
    obtain ⟨h1, e2, a2⟩ := decref_ok hlive
    have hv1 : vec ⟨s.list.assign q.toNat (vec s)[i], h1⟩ = (vec s).set q.toNat (vec s)[i] := by simp [vec]
    have hcs := fun x => count_set (vec s) q.toNat (vec s)[i] x hqn
    have hc1 : Covered ext h1 ((vec s).set q.toNat (vec s)[i]) := by
      intro o ho
      rw [a2.1, a1.1] at ho
      have q1 := a1.2 o ho
      have q2 := a2.2 o (by rw [a1.1]; exact ho)
      have q3 := hc o ho
      have q4 := hcs o
      dsimp only at q1 q2 ⊢
      omega
    obtain ⟨s', e3, v3, l3, a3⟩ := ih (i + 1) ⟨s.list.assign q.toNat (vec s)[i], h1⟩ (by omega)
      (by rw [hv1, List.length_set]; exact hnl) (by rw [hv1]; exact hc1) (by rw [hv1]; exact hInext)
      (by
        intro t ht
        rw [hv1, List.length_set]
        exact hidx t ht)
    refine ⟨s', ?_, v3, ?_, ?_⟩
    · rw [overwrite]
      simp only [OSrc.elems]
      rw [List.getElem?_eq_getElem hlt]
      simp only
      rw [hq, if_neg (by omega), size_vec, listAt_lt (by omega)]
      simp only
      rw [List.getElem?_eq_getElem hqn]
      simp only [e2]
      exact e3
    · rw [l3, hv1, List.length_set]
    · refine ((a1.trans a2).trans a3).congr fun x => ?_
      have := hcs x
      rw [hv1]
      omega

theorem three_at (A B C : List Obj) (p : Nat) : (A ++ B ++ C)[p]? =
    if p < A.length then A[p]? else if p < A.length + B.length then B[p - A.length]?
      else C[p - (A.length + B.length)]? := by
  by_cases h : p < A.length
  · rw [if_pos h, List.append_assoc, List.getElem?_append_left h]
  · rw [if_neg h]
    by_cases h2 : p < A.length + B.length
    · rw [if_pos h2, List.getElem?_append_left (by simp; omega), List.getElem?_append_right (by omega)]
    · rw [if_neg h2, List.getElem?_append_right (by simp; omega), List.length_append]

/-- Step 1 and a start after the first element. -/
theorem self_one {l v mid ins : List Obj} {a b : Nat} (ha : 0 < a) (hal : a ≤ l.length) (hb : b ≤ l.length)
    (hmid : mid = l.take b ++ ins ++ l.drop b) (hins : ins.length = l.length - (b - a))
    (hg : b < a → (0 < b → ∀ t, t < l.length → mid[b + t]? = mid[t]?) ∧ (b = 0 → ∀ x ∈ ins, l[0]? = some x))
    (hout : ∀ p, p < a ∨ a + l.length ≤ p → v[p]? = mid[p]?) (hin : ∀ t, t < l.length → v[a + t]? = v[t]?) :
    v = l.take a ++ l ++ l.drop (max a b) ↔ Period l l.length a ∧ (b < a → Period l a (max b 1)) := by
  have hT : ∀ p, (l.take a ++ l ++ l.drop (max a b))[p]? =
      if p < a then l[p]? else if p < a + l.length then l[p - a]? else l[max a b + (p - (a + l.length))]? := by
    intro p
    rw [three_at, List.length_take, Nat.min_eq_left hal, List.getElem?_drop]
    split
    · rw [List.getElem?_take, if_pos (by assumption)]
    · rfl
  have hM : ∀ p, mid[p]? =
      if p < b then l[p]? else if p < b + ins.length then ins[p - b]? else l[b + (p - (b + ins.length))]? := by
    intro p
    rw [hmid, three_at, List.length_take, Nat.min_eq_left hb, List.getElem?_drop]
    split
    · rw [List.getElem?_take, if_pos (by assumption)]
    · rfl
  constructor
  · intro hv
    have hma : ∀ q, q < a → mid[q]? = l[q]? := by
      intro q hq
      rw [← hout q (.inl hq), hv, hT, if_pos hq]
    refine ⟨fun p hp => ?_, fun hba p hp => ?_⟩
    · have := hin (p + a) hp
      rw [hv, hT, hT, if_neg (by omega), if_pos (by omega), if_neg (by omega), if_pos (by omega),
        show a + (p + a) - a = p + a by omega, show p + a - a = p by omega] at this
      exact this
    · obtain ⟨g1, g2⟩ := hg hba
      by_cases h0 : 0 < b
      · rw [Nat.max_eq_left (by omega)] at hp ⊢
        rw [← hma _ hp, ← hma p (by omega), Nat.add_comm p b]
        exact g1 h0 p (by omega)
      · have hb0 : b = 0 := by omega
        have hz : ∀ q, q < a → l[q]? = l[0]? := by
          intro q hq
          have hlt : q < ins.length := by omega
          rw [← hma q hq, hM, if_neg (by omega), if_pos (by omega), hb0, Nat.sub_zero, List.getElem?_eq_getElem hlt]
          exact (g2 hb0 _ (List.getElem_mem hlt)).symm
        rw [hb0, show max 0 1 = 1 from rfl] at hp ⊢
        rw [hz _ hp, hz p (by omega)]
  · rintro ⟨h1, h2⟩
    have hma : ∀ q, q < a → mid[q]? = l[q]? := by
      intro q
      induction q using Nat.strongRecOn with
      | _ q ih =>
        intro hq
        by_cases hqb : q < b
        · rw [hM, if_pos hqb]
        · have hba : b < a := by omega
          obtain ⟨g1, g2⟩ := hg hba
          by_cases h0 : 0 < b
          · have e := g1 h0 (q - b) (by omega)
            rw [show b + (q - b) = q by omega, ih (q - b) (by omega) (by omega)] at e
            have := h2 hba (q - b) (by omega)
            rw [Nat.max_eq_left (by omega), show q - b + b = q by omega] at this
            rw [e, this]
          · have hb0 : b = 0 := by omega
            have hlt : q < ins.length := by omega
            have hz : ∀ q, q < a → l[q]? = l[0]? := by
              intro q
              induction q with
              | zero => intro _; rfl
              | succ q ihq =>
                intro hq
                have := h2 hba q (by omega)
                rw [hb0, show max 0 1 = 1 from rfl] at this
                rw [this, ihq (by omega)]
            rw [hM, if_neg (by omega), if_pos (by omega), hz q hq, hb0, Nat.sub_zero, List.getElem?_eq_getElem hlt]
            exact (g2 hb0 _ (List.getElem_mem hlt)).symm
    apply List.ext_getElem?
    intro p
    induction p using Nat.strongRecOn with
    | _ p ih =>
      rw [hT]
      by_cases hp : p < a
      · rw [if_pos hp, hout p (.inl hp), hma p hp]
      · rw [if_neg hp]
        by_cases hp2 : p < a + l.length
        · rw [if_pos hp2]
          have e := hin (p - a) (by omega)
          rw [show a + (p - a) = p by omega, ih (p - a) (by omega), hT] at e
          rw [e]
          by_cases hp3 : p - a < a
          · rw [if_pos hp3]
          · rw [if_neg hp3, if_pos (by omega)]
            have := h1 (p - a - a) (by omega)
            rw [show p - a - a + a = p - a by omega] at this
            exact this.symm
        · rw [if_neg hp2, hout p (.inr (by omega)), hM, if_neg (by omega), if_neg (by omega)]
          congr 1
          omega

/-- Writing a list backwards over another of the same length. -/
theorem overwrite_back (xs : List Obj) : ∀ (A B : List Obj), A.length = xs.length →
    Spec.overwrite (A ++ B) ((List.range xs.length).map fun t => xs.length - 1 - t) xs = xs.reverse ++ B := by
  induction xs with
  | nil =>
    intro A B h
    cases A with
    | nil => rfl
    | cons => simp at h
  | cons x xs ih =>
    intro A B h
    obtain ⟨A', y, rfl⟩ : ∃ A' y, A = A' ++ [y] := by
      refine ⟨A.dropLast, A.getLast (by intro e; rw [e] at h; simp at h), ?_⟩
      rw [List.dropLast_concat_getLast]
    have hA : A'.length = xs.length := by simpa using h
    rw [List.length_cons, List.range_succ_eq_map, List.map_cons, Spec.overwrite, List.map_map]
    have e : (A' ++ [y] ++ B).set (xs.length + 1 - 1 - 0) x = A' ++ (x :: B) := by
      rw [List.append_assoc, List.set_append_right _ _ (by omega)]
      simp [hA]
    have e2 : ((fun t => xs.length + 1 - 1 - t) ∘ Nat.succ) = fun t => xs.length - 1 - t := by
      funext t; simp only [Function.comp]; omega
    rw [e, e2, ih A' (x :: B) hA]
    simp

end Verif.ObjLinked
