import Verif.Lemmas.ExactObj
import Verif.Lemmas.ObjLinkedList
import Verif.Lemmas.SelfSlice
import Verif.Spec.ExactObjLinked
import Mathlib.Tactic.ByContra

/-! Helper lemmas: the exact domain of ObjectLinkedList. -/

namespace Verif.ObjLinked

open Heap OObj
open ObjArray (Tight tight_of tight_always bad bad_not)

variable {ext : Obj → Nat} {s : OLState}

/-- References a call loses, with those of `l.extend(l)`, which counts every element twice. -/
def lostBy (l : List Obj) : OOp → List Obj
  | .extend .self => l
  | op => leaked l op

abbrev cfg0 : Cfg := ⟨.v312, false, false, false, false⟩

/-- `xs` written over what starts at `start` of a list in which it was inserted at `stop` before. -/
theorem back_eq {l xs : List Obj} {lo hi : Nat} (h1 : hi ≤ lo) (h2 : lo ≤ l.length) :
    (l.take hi ++ xs ++ l.drop hi).take lo ++ xs ++ (l.take hi ++ xs ++ l.drop hi).drop (lo + xs.length) =
      l.take lo ++ xs ++ l.drop lo ↔
    (xs ++ l.drop hi).take (lo - hi) = (l.drop hi).take (lo - hi) := by
  have hl : (l.take hi).length = hi := by simp; omega
  have e1 : (l.take hi ++ xs ++ l.drop hi).take lo = l.take hi ++ (xs ++ l.drop hi).take (lo - hi) := by
    rw [List.append_assoc, List.take_append, hl, List.take_of_length_le (by omega)]
  have e2 : l.take lo = l.take hi ++ (l.drop hi).take (lo - hi) := by
    conv => lhs; rw [show lo = hi + (lo - hi) by omega, List.take_add]
  have e3 : (l.take hi ++ xs ++ l.drop hi).drop (lo + xs.length) = l.drop lo := by
    rw [List.drop_append, List.drop_eq_nil_of_le (by simp; omega), List.nil_append, List.drop_drop]
    congr 1
    simp; omega
  rw [e1, e2, e3, List.append_cancel_right_eq, List.append_cancel_right_eq, List.append_cancel_left_eq]

theorem setSlice_tight (hc : Covered ext s.heap (vec s)) (hn : ((vec s).length : Int) ≤ ssizeMax) (sl : SliceArg)
    {src : OSrc} (hsrc : src ≠ .self) (strict : Bool) (H : OHost) :
    Tight (view (setSlice s sl src)) (arr s) (Spec.ostep H (vec s) (.setSlice sl src)) []
      (Exact H strict (vec s) (.setSlice sl src)) := by
  obtain ⟨u1, u2⟩ := sliceUnpack_fields sl
  cases hf : Spec.fields sl with
  | error e =>
    refine (tight_always ?_).congr (P := True) (by simp [Exact, hf])
    simp only [setSlice, Spec.ostep, u1, hf]
    exact ObjArray.does_err (s := arr s) e
  | ok f =>
    obtain ⟨i, j, k⟩ := f
    have hk0 := u2 i j k hf
    have noSeq : src.isSequence = false ∨ src.size (vec s) < 0 →
        Does (view (setSlice s sl src)) (arr s) (vec s, .error .typeError) [] := by
      intro h
      have : setSlice s sl src = .exc s .typeError := by
        simp only [setSlice, u1, hf]
        rcases h with h | h
        · rw [h]; rfl
        · rw [if_pos h, ite_self]
      rw [this]
      exact ObjArray.does_err (s := arr s) _
    have sizedCase : ∀ xs, ObjArray.sized src = some xs →
        Tight (view (setSlice s sl src)) (arr s) (Spec.ostep H (vec s) (.setSlice sl src)) []
          (SliceExact (vec s) xs (i, j, k)) := by
      intro xs hs
      by_cases hok : sliceOk (vec s) xs (i, j, k)
      · refine (tight_always (setSlice_does (sl := sl) hc H ⟨hn, .inr ⟨xs, hs, fun f h => ?_⟩⟩)).congr ?_
        · rw [hf] at h; cases h; exact hok
        · refine ⟨fun _ => ?_, fun _ => trivial⟩
          rcases hok with h | ⟨h1, h2 | h2⟩
          · exact .inl h
          · exact .inr ⟨h1, .inl h2⟩
          · exact .inr ⟨h1, .inr (.inl (Int.toNat_le_toNat h2))⟩
      · -- what is left: a value that does not fit, or one that is longer than a slice ending before it starts
        have hlen : (Spec.positions (vec s).length i j k).length ≠ xs.length := fun h => hok (.inl h)
        obtain ⟨z1, z2, z3, z4⟩ := ObjArray.elems_sized hs (vec s)
        have hit : Spec.oitems (vec s) src = .ok (xs, none) := by
          cases src <;> simp [ObjArray.sized] at hs <;> subst hs <;> rfl
        rw [hf] at u1
        simp only at u1
        by_cases hk : k = 1
        · subst hk
          have hlt : ¬ xs.length < (Spec.positions (vec s).length i j 1).length := fun h => hok (.inr ⟨rfl, .inl h⟩)
          have hle : ¬ (i.map (Spec.clampUp (vec s).length)).getD 0 ≤
            (j.map (Spec.clampUp (vec s).length)).getD (vec s).length := fun h => hok (.inr ⟨rfl, .inr h⟩)
          simp only [setSlice, Spec.ostep, u1, hf, z2, z3, hit, Bool.not_true, Bool.false_eq_true, if_false, size_vec]
          rw [if_neg (by omega)]
          generalize hadj : adjustIndices (vec s).length _ _ _ = adj
          obtain ⟨start, stop, cnt⟩ := adj
          obtain ⟨p1, p2, p3⟩ := adjust_positions hn hk0 hadj
          simp only
          generalize hstep : (if clampSsize 1 < -ssizeMax then -ssizeMax else clampSsize 1) = step at *
          have hst1 : step = 1 := by rw [← hstep]; decide
          subst hst1
          obtain ⟨q1, q2⟩ := p3 (by decide)
          obtain ⟨b1, b2, b3, b4, b5⟩ := LinkedList.adjust_one (n := (vec s).length) hadj
          rw [← q1, ← q2] at hle
          have hcnt : cnt = 0 := by omega
          subst hcnt
          have hpl : (Spec.positions (vec s).length i j 1).length = 0 := by rw [p1]; rfl
          obtain ⟨s1, e1, v1, a1⟩ := grow_ok hs xs.length 0 stop.toNat s (by omega) (by omega)
          rw [List.drop_zero, List.take_length] at v1
          have hc1 := adj_covered hc a1
          have hl1 : (vec s1).length = (vec s).length + xs.length := by rw [v1]; simp; omega
          have hY : vec s1 = (vec s1).take start.toNat ++ ((vec s1).drop start.toNat).take xs.length ++
              (vec s1).drop (start.toNat + xs.length) := by
            rw [← List.drop_drop, List.append_assoc, List.take_append_drop, List.take_append_drop]
          obtain ⟨s2, e2, v2, a2⟩ := overwrite_one hs (start := start) (s := s1) (by simp; omega) hY (by simp; omega)
            hc1
          have hrep : replace src start stop 1 0 xs.length s = .ok s2 := by
            unfold replace
            simp only
            rw [if_neg (by omega), if_pos (by omega), if_neg (by omega), size_vec, listAt_lt (by omega)]
            simp only
            rw [show ((xs.length : Int) - 0).toNat = xs.length by omega, show Int.toNat 0 = 0 from rfl, e1]
            simpa using e2
          refine tight_of (does_slice hrep v2 ((a1.trans a2).congr fun x => by omega)) ?_
          have hspl : Spec.spliceAt (vec s) i j xs =
              (vec s).take start.toNat ++ xs ++ (vec s).drop start.toNat := by
            simp only [Spec.spliceAt, ← q1, ← q2]
            rw [Nat.max_eq_left (by omega)]
          rw [if_pos trivial, hspl, v1]
          simp only [Prod.mk.injEq, and_true]
          rw [back_eq (by omega) (by omega)]
          simp only [SliceExact, ← q1, ← q2]
          constructor
          · exact fun h => .inr ⟨trivial, .inr (.inr h)⟩
          · rintro (h | ⟨-, h | h | h⟩)
            · exact absurd h hlen
            · exact absurd h hlt
            · omega
            · exact h
        · refine ⟨fun h => ?_, fun h => ?_⟩
          · rcases h with h | h
            · exact absurd h hlen
            · exact absurd h.1 hk
          · exfalso
            simp only [setSlice, Spec.ostep, u1, hf, z2, z3, hit, Bool.not_true, Bool.false_eq_true, if_false] at h
            rw [if_neg (by omega), if_neg hk,
              if_neg (show ¬ xs.length = (Spec.positions (vec s).length i j k).length from fun e => hlen e.symm)] at h
            revert h
            split <;> exact id
    cases src with
    | self => exact absurd rfl hsrc
    | notIterable =>
      refine (tight_of (noSeq (.inl rfl)) ?_).congr (P := True) (by simp [Exact, hf])
      simp [Spec.ostep, hf, Spec.oitems]
    | iter xs f =>
      refine (tight_of (noSeq (.inl rfl)) ?_).congr (P := f = some .typeError) (by simp [Exact, hf])
      simp only [Spec.ostep, hf, Spec.oitems]
      cases f with
      | none =>
        simp only [reduceCtorEq, iff_false]
        split
        · simp
        · split <;> simp
      | some e => simp [eq_comm]
    | seqNoLen xs =>
      refine (tight_of (noSeq (.inr (by simp [OSrc.size]))) ?_).congr (P := False) (by simp [Exact, hf])
      simp only [Spec.ostep, hf, Spec.oitems, iff_false]
      split
      · simp
      · split <;> simp
    | same v => exact (sizedCase v rfl).congr (by simp [Exact, hf])
    | list v => exact (sizedCase v rfl).congr (by simp [Exact, hf])
    | tuple v => exact (sizedCase v rfl).congr (by simp [Exact, hf])
    | seq v => exact (sizedCase v rfl).congr (by simp [Exact, hf])

/-- `l[i:j:k] = l`. -/
theorem setSlice_self_tight (hc : Covered ext s.heap (vec s)) (hn : ((vec s).length : Int) ≤ ssizeMax) (sl : SliceArg)
    (strict : Bool) (H : OHost) :
    Tight (view (setSlice s sl .self)) (arr s) (Spec.ostep H (vec s) (.setSlice sl .self)) []
      (Exact H strict (vec s) (.setSlice sl .self)) := by
  obtain ⟨u1, u2⟩ := sliceUnpack_fields sl
  cases hf : Spec.fields sl with
  | error e =>
    refine (tight_always ?_).congr (P := True) (by simp [Exact, hf])
    simp only [setSlice, Spec.ostep, u1, hf]
    exact ObjArray.does_err (s := arr s) e
  | ok f =>
    obtain ⟨i, j, k⟩ := f
    have hk0 := u2 i j k hf
    refine Tight.congr (P := SelfExact (vec s) (i, j, k)) ?_ (by simp [Exact, hf])
    rw [hf] at u1
    simp only at u1
    simp only [setSlice, Spec.ostep, u1, hf, OSrc.isSequence, OSrc.size, Spec.oitems, Bool.not_true, Bool.false_eq_true,
      if_false, size_vec]
    rw [if_neg (by omega)]
    generalize hadj : adjustIndices (vec s).length _ _ _ = adj
    obtain ⟨start, stop, cnt⟩ := adj
    obtain ⟨p1, p2, p3⟩ := adjust_positions hn hk0 hadj
    simp only
    have hcnt0 : 0 ≤ cnt := adjust_nonneg hadj
    by_cases hk : k = 1
    · subst hk
      generalize hstep : (if clampSsize 1 < -ssizeMax then -ssizeMax else clampSsize 1) = step at *
      have hst1 : step = 1 := by rw [← hstep]; decide
      subst hst1
      obtain ⟨q1, q2⟩ := p3 (by decide)
      obtain ⟨b1, b2, b3, b4, b5⟩ := LinkedList.adjust_one (n := (vec s).length) hadj
      have hspl : Spec.spliceAt (vec s) i j (vec s) =
          (vec s).take start.toNat ++ vec s ++ (vec s).drop (max start.toNat stop.toNat) := by
        simp only [Spec.spliceAt, ← q1, ← q2]
      rw [if_pos rfl, hspl]
      simp only [SelfExact, ← q1, ← q2, if_true]
      -- the list grown
      have hgrow : ∃ s1 ins, (∀ s2, overwrite .self start 1 (vec s).length 0 s1 = .ok s2 →
            replace .self start stop 1 cnt (vec s).length s = .ok s2) ∧
          vec s1 = (vec s).take stop.toNat ++ ins ++ (vec s).drop stop.toNat ∧
          ins.length = (vec s).length - (stop.toNat - start.toNat) ∧
          (cnt.toNat < stop.toNat → ∀ t, t < ins.length → (vec s1)[stop.toNat + t]? = (vec s1)[cnt.toNat + t]?) ∧
          (cnt.toNat = stop.toNat → ∀ x ∈ ins, (vec s)[stop.toNat]? = some x) ∧
          Adj s.heap s1.heap (fun x => ((vec s1).count x : Nat) - ((vec s).count x : Nat)) := by
        by_cases hlt : cnt < (vec s).length
        · obtain ⟨s1, ins, e1, v1, l1, g1, c1, a1⟩ := grow_self ((vec s).length - cnt).toNat cnt.toNat stop.toNat s
            (by omega) (by omega) (by omega)
          refine ⟨s1, ins, fun s2 e2 => ?_, v1, by omega, fun h t ht => g1 h t (by omega), c1, a1⟩
          unfold replace
          simp only
          rw [if_neg (by omega), if_pos hlt, if_neg (by omega), size_vec, listAt_lt (by omega)]
          simp only
          rw [e1]
          simpa using e2
        · refine ⟨s, [], fun s2 e2 => ?_, by simp, ?_, fun _ t ht => absurd ht (by simp), fun _ x hx => by simp at hx,
            (Adj.refl _).congr (by simp)⟩
          · unfold replace
            simp only
            rw [if_neg (by omega), if_neg hlt]
            simpa using e2
          · simp only [List.length_nil]
            omega
      obtain ⟨s1, ins, e1, v1, l1, g1, c1, a1⟩ := hgrow
      have hc1 := adj_covered hc a1
      have hl1 : (vec s1).length = (vec s).length + ins.length := by rw [v1]; simp; omega
      have hidx : ∀ t : Nat, t < (vec s).length → 0 ≤ start + (t : Int) * 1 ∧ start + (t : Int) * 1 < (vec s1).length := by
        intro t ht
        rw [hl1]
        omega
      by_cases ha : start.toNat = 0
      · -- every element is written over itself
        obtain ⟨s2, e2, v2, -, a2⟩ := overwrite_self (ext := ext) start 1 (fun _ v => v = vec s1) (vec s).length
          (by
            rintro i v o rfl hv hi
            rw [show (start + (i : Int) * 1).toNat = i by omega]
            obtain ⟨h, rfl⟩ := List.getElem?_eq_some_iff.1 hv
            exact List.set_getElem_self h) (vec s).length 0 s1 (by omega) (by omega) hc1 rfl hidx
        have hrep := e1 s2 e2
        refine tight_of (does_slice hrep v2 ((a1.trans a2).congr fun x => by omega)) ?_
        rw [if_pos ha, ha, v1]
        simp only [Prod.mk.injEq, and_true]
        rw [Nat.zero_max, List.take_zero, List.nil_append, List.append_cancel_right_eq]
        have hcs : cnt.toNat = stop.toNat := by omega
        have hspl2 : vec s = (vec s).take stop.toNat ++ (vec s).drop stop.toNat := (List.take_append_drop _ _).symm
        have hlen : ins.length = ((vec s).drop stop.toNat).length := by simp; omega
        constructor
        · intro h x hx
          have e : ins = (vec s).drop stop.toNat := by
            have h' := h.trans hspl2
            exact List.append_cancel_left h'
          exact c1 hcs x (e ▸ hx)
        · intro h
          have e : ins = (vec s).drop stop.toNat := by
            apply List.ext_getElem hlen
            intro n h1 h2
            have e1 := c1 hcs _ (List.getElem_mem h1)
            have e2 := h _ (List.getElem_mem h2)
            rw [e1] at e2
            exact Option.some.inj e2
          rw [e, List.take_append_drop]
      · obtain ⟨s2, e2, v2, -, a2⟩ := overwrite_self (ext := ext) start 1
          (fun i v => (∀ p, p < start.toNat ∨ start.toNat + i ≤ p → v[p]? = (vec s1)[p]?) ∧
            (∀ t, t < i → v[start.toNat + t]? = v[t]?) ∧ v.length = (vec s1).length) (vec s).length
          (by
            rintro i v o ⟨h1, h2, h3⟩ hv hi
            rw [show (start + (i : Int) * 1).toNat = start.toNat + i by omega]
            refine ⟨fun p hp => ?_, fun t ht => ?_, by rw [List.length_set, h3]⟩
            · rw [List.getElem?_set_ne (by omega)]
              exact h1 p (by omega)
            · rw [List.getElem?_set_ne (i := start.toNat + i) (j := t) (by omega)]
              by_cases hti : t = i
              · subst hti
                rw [List.getElem?_set_self (by rw [h3, hl1]; omega), hv]
              · rw [List.getElem?_set_ne (by omega)]
                exact h2 t (by omega)) (vec s).length 0 s1 (by omega) (by omega) hc1
          ⟨fun _ _ => rfl, fun t ht => absurd ht (by omega), rfl⟩ hidx
        have hrep := e1 s2 e2
        refine tight_of (does_slice hrep rfl ((a1.trans a2).congr fun x => by omega)) ?_
        rw [if_neg ha]
        simp only [Prod.mk.injEq, and_true]
        refine self_one (by omega) (by omega) (by omega) v1 l1 ?_ (fun p hp => v2.1 p (by omega)) v2.2.1
        intro hba
        have hc0 : cnt.toNat = 0 := by omega
        refine ⟨fun h0 t ht => ?_, fun h0 => ?_⟩
        · have := g1 (by omega) t (by omega)
          rwa [hc0, Nat.zero_add] at this
        · have := c1 (by omega)
          rwa [h0] at this
    · generalize hstep : (if clampSsize k < -ssizeMax then -ssizeMax else clampSsize k) = step at *
      have hlen : (Spec.positions (vec s).length i j k).length = cnt.toNat := by rw [p1]; simp
      simp only [SelfExact, if_neg hk]
      by_cases heq : cnt.toNat = (vec s).length
      · rw [if_pos (by rw [hlen, heq])]
        have hs1 : step ≠ 1 := by
          intro h
          apply hk
          rw [← hstep] at h
          unfold clampSsize at h
          have e1 : ssizeMax = 9223372036854775807 := by decide
          rw [e1] at h
          split at h
          · omega
          · split at h
            · omega
            · split at h <;> omega
        have hback : ∀ t : Nat, t < (vec s).length → (start + (t : Int) * step).toNat = (vec s).length - 1 - t := by
          intro t ht
          obtain ⟨r1, r2⟩ := p2 0 (by omega)
          rw [show start + ((0 : Nat) : Int) * step = start by simp] at r1 r2
          by_cases h1 : (vec s).length = 1
          · have : t = 0 := by omega
            subst this
            simp
            omega
          · obtain ⟨r3, r4⟩ := p2 ((vec s).length - 1) (by omega)
            obtain ⟨r5, r6⟩ := p2 1 (by omega)
            have hneg : step = -1 := by
              have hm : ∀ m : Int, 1 ≤ m → 0 ≤ start → start ≤ m → 0 ≤ start + m * step → start + m * step ≤ m →
                  step = 1 ∨ step = 0 ∨ step = -1 := by
                intro m h1 h2 h3 h4 h5
                have u1 : step ≤ 1 := by
                  by_contra hgt
                  have : m * 2 ≤ m * step := Int.mul_le_mul_of_nonneg_left (by omega) (by omega)
                  omega
                have u2 : -1 ≤ step := by
                  by_contra hgt
                  have : m * step ≤ m * (-2) := Int.mul_le_mul_of_nonneg_left (by omega) (by omega)
                  omega
                omega
              have hz : step ≠ 0 := by
                intro h0
                apply hk0
                rw [← hstep] at h0
                unfold clampSsize at h0
                have e1 : ssizeMax = 9223372036854775807 := by decide
                rw [e1] at h0
                split at h0
                · omega
                · split at h0
                  · omega
                  · split at h0 <;> omega
              have := hm (((vec s).length - 1 : Nat) : Int) (by omega) (by omega) (by omega) r3 (by omega)
              omega
            subst hneg
            omega
        have hpos : Spec.positions (vec s).length i j k =
            (List.range (vec s).length).map fun t => (vec s).length - 1 - t := by
          rw [p1, heq]
          apply List.map_congr_left
          intro t ht
          exact hback t (List.mem_range.1 ht)
        have hT : Spec.overwrite (vec s) (Spec.positions (vec s).length i j k) (vec s) = (vec s).reverse := by
          rw [hpos]
          simpa using overwrite_back (vec s) (vec s) [] rfl
        obtain ⟨s2, e2, ⟨v2, v3⟩, l2, a2⟩ := overwrite_self (ext := ext) start step
          (fun i v => (v.length = (vec s).length ∧ ∀ t, t < i → v[(vec s).length - 1 - t]? = v[t]?) ∧
            ((vec s).reverse = vec s → v = vec s)) (vec s).length
          (by
            rintro i v o ⟨⟨h1, h2⟩, h3⟩ hv hi
            rw [hback i hi]
            refine ⟨⟨by rw [List.length_set, h1], fun t ht => ?_⟩, fun hr => ?_⟩
            · by_cases hti : t = i
              · subst hti
                rw [List.getElem?_set_self (by omega)]
                by_cases hm : t = (vec s).length - 1 - t
                · rw [← hm, List.getElem?_set_self (by omega)]
                · rw [List.getElem?_set_ne (by omega), hv]
              · rw [List.getElem?_set_ne (i := (vec s).length - 1 - i) (j := (vec s).length - 1 - t) (by omega)]
                have := h2 t (by omega)
                by_cases hm : t = (vec s).length - 1 - i
                · rw [← hm, List.getElem?_set_self (by omega), show (vec s).length - 1 - t = i by omega, hv]
                · rw [List.getElem?_set_ne (by omega)]
                  exact this
            · have := h3 hr
              subst this
              obtain ⟨h, rfl⟩ := List.getElem?_eq_some_iff.1 hv
              have : (vec s)[i]'h = (vec s)[(vec s).length - 1 - i]'(by omega) := by
                have e := congrArg (fun z => z[i]?) hr
                simp only [List.getElem?_reverse h, List.getElem?_eq_getElem h] at e
                rw [List.getElem?_eq_getElem (by omega)] at e
                exact (Option.some.inj e).symm
              rw [this]
              exact List.set_getElem_self _) (vec s).length 0 s (by omega) (by omega) hc
          ⟨⟨rfl, fun t ht => absurd ht (by omega)⟩, fun _ => rfl⟩ (fun t ht => p2 t (by omega))
        have hrep : replace .self start stop step cnt (vec s).length s = .ok s2 := by
          unfold replace
          simp only
          rw [if_neg (by omega), if_neg (by omega)]
          simpa using e2
        refine tight_of (does_slice hrep rfl a2) ?_
        rw [hT]
        simp only [Prod.mk.injEq, and_true]
        constructor
        · intro h
          refine ⟨by rw [hlen, heq], ?_⟩
          apply List.ext_getElem?
          intro p
          by_cases hp : p < (vec s).length
          · have := v2.2 p hp
            rw [h, List.getElem?_reverse hp, List.getElem?_reverse (by omega),
              show (vec s).length - 1 - ((vec s).length - 1 - p) = p by omega] at this
            rw [List.getElem?_reverse hp, this]
          · rw [List.getElem?_eq_none (by simp; omega), List.getElem?_eq_none (by omega)]
        · rintro ⟨-, h⟩
          rw [v3 h, h]
      · refine ⟨fun h => absurd (hlen ▸ h.1) heq, fun h => ?_⟩
        exfalso
        rw [if_neg (by rw [hlen]; omega)] at h
        revert h
        split <;> exact id

theorem outOf_view {o : OLOut} {res : Spec.ORes} {lk : List Obj} (h : LDoes o s res lk) : OAgrees (view o) res :=
  Does.agrees h

/-- `l.extend(l)`, read by positions. -/
theorem extend_self_does (hc : Covered ext s.heap (vec s)) (H : OHost) :
    Does (view (extend false s .self)) (arr s) (Spec.ostep H (vec s) (.extend .self)) (vec s) := by
  obtain ⟨h', e, a⟩ := increfs_ok (h := s.heap) (xs := vec s ++ vec s) (fun o ho => by
    rcases List.mem_append.1 ho with h | h <;> exact hc.live h)
  simp only [extend, Bool.false_eq_true, if_false, e, withHeap]
  refine ⟨h', ?_, a.congr fun x => ?_⟩
  · simp [view, outOf, Spec.ostep, Spec.oabsorb, Spec.oitems, vec]
  · simp only [delta, Spec.ostep, Spec.oabsorb, Spec.oitems, Spec.carried, List.count_append, List.count_nil]
    omega

theorem step_tight (H : OHost) (strict : Bool) (hc : Covered ext s.heap (vec s))
    (hn : ((vec s).length : Int) ≤ ssizeMax) (op : OOp) (hop : Covers op) (hh : Held ext s.heap op) :
    Tight (view (step H strict s op)) (arr s) (Spec.ostep H (vec s) op) (lostBy (vec s) op)
      (Exact H strict (vec s) op) := by
  have base : ∀ op, Held ext s.heap op → ObjArray.Counted H s.heap.imm (vec s) op →
      Tight (ObjArray.step cfg0 H 1 (arr s) op) (arr s) (Spec.ostep H (vec s) op) (ObjArray.leaked (vec s) op)
        (ObjArray.Exact H (vec s) op) := by
    intro op h1 h2
    obtain ⟨p, q⟩ := ObjArray.step_tight (s := arr s) cfg0 H 1 (by omega) hc hn op h1
    exact ⟨fun h => p h h2, q.1⟩
  cases op with
  | append o => rw [step, append_view]; exact base (.append o) hh trivial
  | insert i o => rw [step, insert_view]; exact base (.insert i o) hh trivial
  | remove o => rw [step, remove_view]; exact base (.remove o) hh trivial
  | index o i j => rw [step, index_view]; exact base (.index o i j) hh trivial
  | count o => exact base (.count o) hh trivial
  | contains o => rw [step, contains_view]; exact base (.contains o) hh trivial
  | get k =>
    rw [step, subscript_view]
    exact (base (.get k) hh trivial).congr (by cases k <;> exact Iff.rfl)
  | setItem a o => rw [step, setIdx_view]; exact base (.setItem a o) hh trivial
  | del k =>
    rw [step, del_view]
    exact (base (.del k) hh trivial).congr (by cases k <;> exact Iff.rfl)
  | add src => rw [step, add_view]; exact base (.add src) hh trivial
  | mul n => rw [step, mul_view]; exact base (.mul n) hh trivial
  | rmul a => rw [step, rmul_view]; exact base (.rmul a) hh trivial
  | cmp op src => rw [step, compare_view]; exact base (.cmp op src) hh trivial
  | imul n => exact tight_always (imul_does hc n H)
  | setSlice sl src =>
    by_cases hs : src = .self
    · subst hs
      exact setSlice_self_tight hc hn sl strict H
    · exact setSlice_tight hc hn sl hs strict H
  | resize a => exact absurd hop id
  | reverse => exact tight_always (step_does H strict hc (op := .reverse) trivial hh)
  | clear => exact tight_always (step_does H strict hc (op := .clear) trivial hh)
  | copy => exact tight_always (step_does H strict hc (op := .copy) trivial hh)
  | toList => exact tight_always (step_does H strict hc (op := .toList) trivial hh)
  | len => exact tight_always (step_does H strict hc (op := .len) trivial hh)
  | extend src =>
    by_cases hs : src = .self
    · subst hs
      cases strict with
      | true => exact ⟨fun h => absurd h (by simp [Exact]), fun h => absurd h (bad_not (o := .ub .badIterator) trivial _)⟩
      | false => exact (tight_always (extend_self_does hc H)).congr (by simp [Exact])
    · have e : lostBy (vec s) (.extend src) = [] := by
        cases src <;> first | rfl | exact absurd rfl hs
      rw [e]
      exact (tight_always (extend_does strict hc hs hh H)).congr (by simp [Exact, hs])
  | iadd src =>
    by_cases hs : src = .self
    · subst hs
      refine ⟨fun h => absurd rfl h.1, fun h => ?_⟩
      exfalso
      revert h
      simp only [step, iadd, Spec.ostep, Spec.oabsorb, Spec.oitems]
      cases s.heap.increfs (vec s) with
      | error u => exact id
      | ok h =>
        cases strict with
        | true => exact id
        | false => exact fun h => by cases h.2
    · rw [step, iadd_view strict hs]; exact base (.iadd src) hh trivial
  | pop a =>
    cases a with
    | none =>
      rw [step, pop_view_none]
      exact (base (.pop none) hh trivial).congr (by simp [Exact, ObjArray.Exact])
    | some a =>
      by_cases hp : ∀ v, a = .int v → Spec.position (vec s).length v = none
      · rw [step, pop_view_bad a hp]
        refine (base (.pop (some a)) hh trivial).congr ⟨fun h => ⟨h, fun v hv => hp v ?_⟩, fun h => h.1⟩
        simpa using hv
      · refine ⟨fun h => absurd (fun v hv => h.2 v (by rw [hv])) hp, fun h => ?_⟩
        exfalso
        obtain ⟨v, h1⟩ := Classical.not_forall.1 hp
        obtain ⟨rfl, hpos⟩ := Classical.not_imp.1 h1
        have hb : -((vec s).length : Int) ≤ v ∧ v < (vec s).length := by
          unfold Spec.position at hpos
          split at hpos
          · omega
          · split at hpos
            · omega
            · exact absurd rfl hpos
        have hfit : FitsS 64 v := by
          have e1 : ssizeMax = 9223372036854775807 := by decide
          rw [e1] at hn
          exact (fits64 v).2 (by omega)
        refine bad_not ?_ _ h
        simp only [step, pop]
        cases hl : (vec s).getLast? with
        | none =>
          rw [List.getLast?_eq_none_iff] at hl
          rw [hl] at hb
          simp at hb
          omega
        | some x =>
          simp only [asSsize, hfit, if_true]
          rw [if_neg (by rw [size_vec]; split <;> omega)]
          split
          · exact trivial
          · split <;> exact trivial

theorem run_tight (H : OHost) (strict : Bool) (ops : List OOp) :
    ∀ s : OLState, Covered ext s.heap (vec s) →
    (∀ res ∈ Spec.orun H (vec s) ops, (res.1.length : Int) ≤ ssizeMax) → ((vec s).length : Int) ≤ ssizeMax →
    (∀ op ∈ ops, Covers op) → (∀ op ∈ ops, Held ext s.heap op) →
    (OAgreesAll ((run H strict s ops).map view) (Spec.orun H (vec s) ops) ↔ HistoryExact H strict (vec s) ops) := by
  induction ops with
  | nil => intro s _ _ _ _ _; exact ⟨fun _ => trivial, fun _ => trivial⟩
  | cons op ops ih =>
    intro s hc hlen hn hcov hh
    have ht := step_tight H strict hc hn op (hcov op (by simp)) (hh op (by simp))
    simp only [HistoryExact, Spec.orun]
    by_cases he : Exact H strict (vec s) op
    · have hd : LDoes (step H strict s op) s (Spec.ostep H (vec s) op) (lostBy (vec s) op) := ht.1 he
      have hag := Does.agrees hd
      obtain ⟨s1, e1, v1, a1⟩ := hd.out
      rw [e1] at hag
      rw [run, e1]
      have hlen2 : ∀ res ∈ Spec.orun H (Spec.ostep H (vec s) op).1 ops, (res.1.length : Int) ≤ ssizeMax :=
        fun res hr => hlen res (by rw [Spec.orun]; exact List.mem_cons_of_mem _ hr)
      have hn2 : ((Spec.ostep H (vec s) op).1.length : Int) ≤ ssizeMax :=
        hlen _ (by rw [Spec.orun]; exact List.mem_cons_self)
      clear hd ht
      generalize Spec.ostep H (vec s) op = res at *
      obtain ⟨l', r⟩ := res
      simp only at v1
      have hc' : Covered ext s1.heap (vec s1) := by
        rw [v1]
        exact ObjArray.Covered.mono (ObjArray.covered_after (s := arr s) hc a1) (fun o => Nat.le_add_right _ _)
      have := ih s1 hc' (by rw [v1]; exact hlen2) (by rw [v1]; exact hn2) (fun o ho => hcov o (by simp [ho]))
        (fun op' hop o ho => by rw [a1.1]; exact hh op' (by simp [hop]) o ho)
      rw [v1] at this
      cases r with
      | ok v => exact ⟨fun h => ⟨he, this.1 h.2⟩, fun h => ⟨hag, this.2 h.2⟩⟩
      | error e => exact ⟨fun h => ⟨he, this.1 h.2⟩, fun h => ⟨hag, this.2 h.2⟩⟩
    · constructor
      · intro h
        exfalso
        apply he
        rw [run] at h
        apply ht.2
        cases hst : step H strict s op <;> rw [hst] at h <;> exact h.1
      · exact fun h => absurd h.1 he

end Verif.ObjLinked
