import Verif.Lemmas.ExactObj
import Verif.Spec.EvenObj

/-! # Reference counts after any call of an ObjectArrayList -/

namespace Verif.ObjArray

open OObj Heap

variable {ext : Obj → Nat} {s : OState}

theorem Balanced.covered {h : Heap} {l : List Obj} (hb : Balanced ext h l) : Covered ext h l :=
  fun o ho => Nat.le_of_eq (hb o ho).symm

/-- The counts after a call that does what a specification says, except that it loses references: right if only immortal
objects were lost. -/
theorem even_of {o : OOut} {res : Spec.ORes} {lk : List Obj} (hb : Balanced ext s.heap s.vec) (h : Does o s res lk) :
    Even ext o ↔ ∀ x ∈ lk, s.heap.imm x = true := by
  obtain ⟨h', rfl, a⟩ := h
  have key : Balanced (Spec.receive ext res.2) h' res.1 ↔ ∀ x ∈ lk, s.heap.imm x = true := by
    constructor
    · intro hb' x hx
      cases hi : s.heap.imm x with
      | true => rfl
      | false =>
        exfalso
        have q1 := a.2 x hi
        have q2 := hb' x (by rw [a.1]; exact hi)
        have q3 := hb x hi
        have q4 : 0 < lk.count x := List.count_pos_iff.2 hx
        simp only [delta, Spec.receive] at q1 q2
        omega
    · intro hl x hx
      rw [a.1] at hx
      have q1 := a.2 x hx
      have q3 := hb x hx
      have q4 : lk.count x = 0 := by
        rw [List.count_eq_zero]
        intro hm
        rw [hl x hm] at hx
        cases hx
      simp only [delta, Spec.receive] at q1 ⊢
      omega
  rcases res with ⟨l, e | v⟩ <;> exact key

theorem even_does {o : OOut} {res : Spec.ORes} (hb : Balanced ext s.heap s.vec) (h : Does o s res []) : Even ext o :=
  (even_of hb h).2 (fun _ h => absurd h (List.not_mem_nil))

/-- Nothing happened. -/
theorem even_same {r : OVal} (hb : Balanced ext s.heap s.vec) (hr : Spec.carried (.ok r) = []) : Even ext (.ok s r) :=
  even_does hb (does_same (r := .ok r) hr rfl)

theorem even_exc (e : Exc) (hb : Balanced ext s.heap s.vec) : Even ext (.exc s e) := even_does hb (does_err e)

theorem index_even (hb : Balanced ext s.heap s.vec) (o : Obj) (i j : Option Arg) : Even ext (index s o i j) := by
  unfold index
  simp only
  split
  · exact even_exc _ hb
  · exact even_exc _ hb
  · rename_i start stop _ _
    have hpos : 0 ≤ (if (if start < 0 then start + (s.vec.length : Int) else start) < 0 then 0
        else if start < 0 then start + (s.vec.length : Int) else start) := by omega
    generalize (if (if start < 0 then start + (s.vec.length : Int) else start) < 0 then 0
        else if start < 0 then start + (s.vec.length : Int) else start) = a at *
    generalize (if (if stop < 0 then stop + (s.vec.length : Int) else stop) > (s.vec.length : Int) then
        (s.vec.length : Int) else if stop < 0 then stop + (s.vec.length : Int) else stop) = b at *
    by_cases h : a > b
    · rw [if_pos h]; exact even_exc _ hb
    · rw [if_neg h, if_neg (by omega)]
      split
      · exact even_exc _ hb
      · exact even_same hb rfl

theorem pop_even (hb : Balanced ext s.heap s.vec) (a : Option Arg) : Even ext (pop s a) := by
  by_cases hi : ∃ v, a = some (.index v)
  · obtain ⟨v, rfl⟩ := hi
    have h : pop s (some (.index v)) = .exc s .indexError ∨ ∃ e, pop s (some (.index v)) = .exc s e := by
      unfold pop
      cases s.vec.getLast? with
      | none => exact .inl rfl
      | some x => exact .inr ⟨_, rfl⟩
    rcases h with h | ⟨e, h⟩ <;> rw [h] <;> exact even_exc _ hb
  · by_cases hv : s.vec = []
    · rw [pop_eq s a (fun v h => hi ⟨v, h⟩), if_pos hv]
      exact even_exc _ hb
    · refine even_does hb (pop_does (a := a) ?_ ⟨0, fun _ => false, fun _ _ _ => .ok false⟩)
      cases a with
      | none => trivial
      | some a =>
        cases a with
        | int v => exact .inl hv
        | index v => exact absurd ⟨v, rfl⟩ hi
        | other => exact hv

theorem cmp_even (hb : Balanced ext s.heap s.vec) (H : OHost) (op : CmpOp) (src : OSrc) :
    Even ext (ObjArray.compare H op s src) := by
  have lst : ∀ r, ObjArray.compare H op s src = ObjArray.compare H op s (.list r) →
      Even ext (ObjArray.compare H op s src) := by
    intro r hr
    rw [hr]
    exact even_does hb (compare_list (Balanced.covered hb) H op r)
  cases src with
  | same r | list r | tuple r | seq r => exact lst r (by cases op <;> rfl)
  | self => exact lst s.vec (by cases op <;> rfl)
  | seqNoLen r =>
    cases op
    case eq => exact hb
    case ne => exact hb
    all_goals exact hb
  | iter xs f | notIterable => cases op <;> exact hb

/-- A sequence without length, step 1: the slots from the one before the slice on are given up, if there is one; then the
elements up to the end of the slice are erased. -/
theorem noLen_even (hb : Balanced ext s.heap s.vec) (xs : List Obj) (start stop n : Int) (h0 : 0 ≤ start)
    (h1 : start ≤ s.vec.length) (h2 : 0 ≤ stop) (h3 : stop ≤ s.vec.length)
    (hn : n = ((stop.toNat - start.toNat : Nat) : Int)) :
    Even ext (replace (.seqNoLen xs) start stop n (-1) s) ↔ 1 ≤ start ∧ start ≤ stop := by
  unfold replace
  simp only
  rw [if_neg (by omega), if_pos (by omega)]
  have hcopy : copyIn (.seqNoLen xs) start.toNat (-1 : Int).toNat (s.vec.map some) s.heap = .ok (s.vec.map some, s.heap) :=
    rfl
  rw [hcopy]
  simp only
  by_cases hs : start < 1
  · rw [if_pos (by omega)]
    constructor
    · exact fun h => h.elim
    · omega
  rw [if_neg (by omega)]
  have hsplit : s.vec = s.vec.take (start.toNat - 1) ++ (s.vec.drop (start.toNat - 1)).take (n.toNat + 1) ++
      s.vec.drop (start.toNat - 1 + (n.toNat + 1)) := by
    rw [← List.drop_drop, List.append_assoc, List.take_append_drop, List.take_append_drop]
  have hlen : ((s.vec.drop (start.toNat - 1)).take (n.toNat + 1)).length = n.toNat + 1 := by
    simp; omega
  have e1 : (start + -1).toNat = start.toNat - 1 := by omega
  have e2 : (n - -1).toNat = n.toNat + 1 := by omega
  obtain ⟨h', d1, d2⟩ := dropRefs_ok (start.toNat - 1) (n.toNat + 1) ((s.vec.take (start.toNat - 1)).map some)
    ((s.vec.drop (start.toNat - 1 + (n.toNat + 1))).map some) ((s.vec.drop (start.toNat - 1)).take (n.toNat + 1)) s.heap
    (by simp; omega) hlen (fun o ho => by
      have q1 := hb o ho
      have q2 := congrArg (List.count o) hsplit
      simp only [List.count_append] at q2
      omega)
  rw [e1, e2]
  have hm : s.vec.map some = (s.vec.take (start.toNat - 1)).map some ++
      ((s.vec.drop (start.toNat - 1)).take (n.toNat + 1)).map some ++
      (s.vec.drop (start.toNat - 1 + (n.toNat + 1))).map some := by
    rw [← List.map_append, ← List.map_append, ← hsplit]
  rw [hm, d1]
  simp only
  have hA : ((s.vec.take (start.toNat - 1)).map some : Slots).length = start.toNat - 1 := by simp; omega
  by_cases hle : start + -1 ≤ stop
  · rw [if_pos ⟨hle, by simp; omega⟩]
    by_cases heq : start ≤ stop
    · -- in order
      have e3 : stop.toNat = start.toNat - 1 + (n.toNat + 1) := by omega
      rw [e3]
      have t1 : ((s.vec.take (start.toNat - 1)).map some ++ List.replicate (n.toNat + 1) none ++
          (s.vec.drop (start.toNat - 1 + (n.toNat + 1))).map some).take (start.toNat - 1) =
          (s.vec.take (start.toNat - 1)).map some := by
        rw [List.append_assoc]
        exact List.take_left' hA
      have t2 : ((s.vec.take (start.toNat - 1)).map some ++ List.replicate (n.toNat + 1) none ++
          (s.vec.drop (start.toNat - 1 + (n.toNat + 1))).map some).drop (start.toNat - 1 + (n.toNat + 1)) =
          (s.vec.drop (start.toNat - 1 + (n.toNat + 1))).map some :=
        List.drop_left' (by simp only [List.length_append, hA, List.length_replicate])
      rw [t1, t2, ← List.map_append]
      have hfin : ∀ (l : List Obj) h e, finishSlots (l.map some) h (some e) = .pending ⟨l, h⟩ .none e := by
        intro l h e
        have := finishSlots_some l h
        unfold finishSlots at this ⊢
        cases hmm : (l.map some).mapM id with
        | none => rw [hmm] at this; cases this
        | some l' => rw [hmm] at this; simp only at this ⊢; cases this; rfl
      rw [if_pos (by decide), hfin]
      refine ⟨fun _ => ⟨by omega, heq⟩, fun _ => ?_⟩
      intro o ho
      rw [d2.1] at ho
      have q1 := d2.2 o ho
      have q2 := hb o ho
      have q3 := congrArg (List.count o) hsplit
      dsimp only at q1
      simp only [List.count_append, Spec.receive, Spec.carried, List.count_nil] at q3 ⊢
      omega
    · -- the slot before stays null
      refine ⟨fun h => ?_, fun h => absurd h.2 heq⟩
      exfalso
      have hn0 : n.toNat = 0 := by omega
      have e3 : stop.toNat = start.toNat - 1 := by omega
      rw [hn0, e3, List.take_append_drop] at h
      unfold finishSlots at h
      have hnone : ((s.vec.take (start.toNat - 1)).map some ++ List.replicate (0 + 1) none ++
          (s.vec.drop (start.toNat - 1 + (0 + 1))).map some : Slots).mapM id = none := by
        cases hmm : ((s.vec.take (start.toNat - 1)).map some ++ List.replicate (0 + 1) none ++
          (s.vec.drop (start.toNat - 1 + (0 + 1))).map some : Slots).mapM id with
        | none => rfl
        | some l =>
          exfalso
          simp [List.mapM_append] at hmm
      rw [hnone] at h
      exact h
  · rw [if_neg (fun h => hle h.1)]
    exact ⟨fun h => h.elim, fun h => by omega⟩

theorem slice_even (hb : Balanced ext s.heap s.vec) (hn : (s.vec.length : Int) ≤ ssizeMax) (sl : SliceArg) (src : OSrc)
    (hh : ∀ o ∈ Spec.mentioned (.setSlice sl src), s.heap.imm o = true ∨ 0 < ext o) :
    Even ext (setSlice s sl src) ↔
      match Spec.fields sl with
      | .error _ => True
      | .ok (i, j, k) => SliceKeeps s.heap.imm s.vec i j k src := by
  obtain ⟨u1, u2⟩ := sliceUnpack_fields sl
  have hc := Balanced.covered hb
  cases hf : Spec.fields sl with
  | error e =>
    simp only [setSlice, u1, hf, iff_true]
    exact even_exc _ hb
  | ok f =>
    obtain ⟨i, j, k⟩ := f
    simp only
    have noSeq : src.isSequence = false → Even ext (setSlice s sl src) := by
      intro h
      simp only [setSlice, u1, hf, h, Bool.not_false, if_true]
      exact even_exc _ hb
    have stepped : src.isSequence = true → k ≠ 1 → Even ext (setSlice s sl src) := by
      intro h hk
      simp only [setSlice, u1, hf, h, Bool.not_true, Bool.false_eq_true, if_false]
      rw [if_pos (fun e => hk (clamp_one e))]
      exact even_exc _ hb
    have counted : ∀ xs, sized src = some xs → k = 1 → ¬ growsUncounted s.vec sl src → Even ext (setSlice s sl src) := by
      intro xs hs hk hg
      refine even_does hb (setSlice_does (H := ⟨0, fun _ => false, fun _ _ _ => .ok false⟩) hc
        ⟨hn, .inr ⟨by rw [hs]; rfl, ?_, hg⟩⟩ hh)
      intro i' j' k' h'
      rw [hf] at h'
      simp only [Except.ok.injEq, Prod.mk.injEq] at h'
      rw [← h'.2.2]; exact hk
    have grown : ∀ xs, (src = .same xs ∨ src = .list xs) →
        (Even ext (setSlice s sl src) ↔ k ≠ 1 ∨ ∀ o ∈ xs.drop (Spec.positions s.vec.length i j k).length,
          s.heap.imm o = true) := by
      intro xs hsrc
      have hs : sized src = some xs := by rcases hsrc with rfl | rfl <;> rfl
      have hfast : fast src = true := by rcases hsrc with rfl | rfl <;> rfl
      have hme : Spec.mentioned (.setSlice sl src) = xs := by rcases hsrc with rfl | rfl <;> rfl
      by_cases hk : k = 1
      · subst hk
        simp only [ne_eq, not_true_eq_false, false_or]
        by_cases hg : (Spec.positions s.vec.length i j 1).length < xs.length
        · obtain ⟨start, stop, cnt, hadj, ⟨⟨k1, k2, k3⟩, hu⟩, q1, q2, b1, b2, b3, b4, hcn, hpos⟩ := slice_one hn hf
          obtain ⟨rfl, hadj⟩ := hadj _ _ _ hu
          obtain ⟨-, z2, z3, z4⟩ := elems_sized hs s.vec
          simp only [setSlice, hu, hadj, z2, z3, Bool.not_true, Bool.false_eq_true, if_false, ne_eq, not_true_eq_false]
          have hA : s.vec = s.vec.take start.toNat ++ (s.vec.drop start.toNat).take (stop.toNat - start.toNat) ++
              s.vec.drop (max start.toNat stop.toNat) := by
            have e : max start.toNat stop.toNat = start.toNat + (stop.toNat - start.toNat) := by omega
            rw [e, ← List.drop_drop, List.append_assoc, List.take_append_drop, List.take_append_drop]
          have hDl : ((s.vec.drop start.toNat).take (stop.toNat - start.toNat)).length =
              stop.toNat - start.toNat := by
            simp; omega
          obtain ⟨h1, e1, a1⟩ := replace_grow hs (s.vec.take start.toNat)
            ((s.vec.drop start.toNat).take (stop.toNat - start.toNat)) (s.vec.drop (max start.toNat stop.toNat))
            start stop cnt hA (by simp; omega) (by rw [hDl]; exact hcn) (by rw [hDl, ← hpos]; exact hg) hfast
            hc (by rw [← hme]; exact hh)
          rw [e1, hpos]
          rw [hDl] at a1
          have cnt_eq : ∀ o, s.heap.imm o = false → h1.rc o + (xs.drop (stop.toNat - start.toNat)).count o =
              ext o + (s.vec.take start.toNat ++ xs ++ s.vec.drop (max start.toNat stop.toNat)).count o := by
            intro o ho
            have p1 := a1.2 o ho
            have p2 := hb o ho
            have p3 : xs.count o = (xs.take (stop.toNat - start.toNat)).count o +
                (xs.drop (stop.toNat - start.toNat)).count o := by
              rw [← List.count_append, List.take_append_drop]
            have p4 : s.vec.count o = _ := congrArg (List.count o) hA
            dsimp only at p1
            simp only [List.count_append] at p4 ⊢
            omega
          constructor
          · intro h o ho
            cases hi : s.heap.imm o with
            | true => rfl
            | false =>
              exfalso
              have p1 := cnt_eq o hi
              have p2 := h o (by rw [a1.1]; exact hi)
              have p3 : 0 < (xs.drop (stop.toNat - start.toNat)).count o := List.count_pos_iff.2 ho
              simp only [Spec.receive, Spec.carried, List.count_nil] at p2
              omega
          · intro h o ho
            simp only [a1.1] at ho
            have p1 := cnt_eq o ho
            have p3 : (xs.drop (stop.toNat - start.toNat)).count o = 0 := by
              rw [List.count_eq_zero]
              intro hm
              rw [h o hm] at ho
              cases ho
            simp only [Spec.receive, Spec.carried, List.count_nil]
            omega
        · refine iff_of_true (counted xs hs rfl ?_) ?_
          · unfold growsUncounted
            rw [hf]
            rcases hsrc with rfl | rfl <;> exact hg
          · rw [List.drop_eq_nil_of_le (by omega)]
            exact fun _ h => absurd h List.not_mem_nil
      · exact iff_of_true (stepped (by rcases hsrc with rfl | rfl <;> rfl) hk) (.inl hk)
    have other : ∀ xs, (src = .tuple xs ∨ src = .seq xs) → Even ext (setSlice s sl src) := by
      intro xs hsrc
      by_cases hk : k = 1
      · refine counted xs (by rcases hsrc with rfl | rfl <;> rfl) hk ?_
        unfold growsUncounted
        rw [hf]
        rcases hsrc with rfl | rfl <;> exact id
      · exact stepped (by rcases hsrc with rfl | rfl <;> rfl) hk
    cases src with
    | notIterable | iter _ _ => exact iff_of_true (noSeq rfl) trivial
    | tuple xs => exact iff_of_true (other xs (.inl rfl)) trivial
    | seq xs => exact iff_of_true (other xs (.inr rfl)) trivial
    | same xs => exact grown xs (.inl rfl)
    | list xs => exact grown xs (.inr rfl)
    | seqNoLen xs =>
      by_cases hk : k = 1
      · subst hk
        obtain ⟨start, stop, cnt, hadj, ⟨⟨k1, k2, k3⟩, hu⟩, q1, q2, b1, b2, b3, b4, hcn, hpos⟩ := slice_one hn hf
        obtain ⟨rfl, hadj⟩ := hadj _ _ _ hu
        simp only [setSlice, hu, hadj, OSrc.isSequence, Bool.not_true, Bool.false_eq_true, if_false, ne_eq,
          not_true_eq_false, OSrc.size, SliceKeeps, false_or]
        rw [noLen_even hb xs start stop cnt b1 b2 b3 b4 hcn, q1, q2]
      · exact iff_of_true (stepped rfl hk) (.inl hk)
    | self =>
      by_cases hk : k = 1
      · subst hk
        obtain ⟨start, stop, cnt, hadj, ⟨⟨k1, k2, k3⟩, hu⟩, q1, q2, b1, b2, b3, b4, hcn, hpos⟩ := slice_one hn hf
        obtain ⟨rfl, hadj⟩ := hadj _ _ _ hu
        simp only [setSlice, hu, hadj, OSrc.isSequence, Bool.not_true, Bool.false_eq_true, if_false, ne_eq,
          not_true_eq_false, OSrc.size, SliceKeeps, false_or]
        by_cases hv : s.vec = []
        · refine iff_of_true ?_ hv
          have e1 : cnt = 0 := by rw [hv] at b2 b4; simp at b2 b4; omega
          obtain ⟨v, h⟩ := s
          simp only at hv
          subst hv
          subst e1
          have : replace OSrc.self start stop 0 (↑([] : List Obj).length) ⟨[], h⟩ = .ok ⟨[], h⟩ .none := by
            simp [replace, copyIn, fast, fastCopy, swapRefs, srcSlots, finishSlots]
          rw [this]
          exact even_same hb rfl
        · refine iff_of_false (fun h => ?_) hv
          have hpos' : 0 < s.vec.length := List.length_pos_iff.2 hv
          revert h
          unfold replace
          simp only
          by_cases hm : (s.vec.length : Int) = cnt
          · rw [if_pos hm]
            have hs0 : start.toNat = 0 := by omega
            obtain ⟨k, hk⟩ : ∃ k, cnt.toNat = k + 1 := ⟨cnt.toNat - 1, by omega⟩
            rw [hs0, hk]
            obtain ⟨x, xs, hx⟩ : ∃ x xs, s.vec = x :: xs := List.exists_cons_of_ne_nil hv
            simp only [copyIn, fast, if_true, fastCopy, swapRefs, hx, List.map_cons, List.getElem?_cons_zero, srcSlots,
              Nat.add_zero, List.set_cons_zero]
            cases s.heap.decref x <;> exact id
          · rw [if_neg hm, if_neg (by omega)]
            split
            · exact id
            · simp only [fast, if_true]; exact id
      · exact iff_of_true (stepped rfl hk) (.inl hk)

theorem imul_ub (hb : Balanced ext s.heap s.vec) (fuel : Nat) (n : Int) (h1 : 1 < n) (hv : s.vec ≠ []) :
    imul fuel s n = .ub .neverReturns := by
  unfold imul
  simp only
  rw [if_neg (by omega : ¬ n < 0), if_neg (by omega)]
  obtain ⟨k, hk⟩ : ∃ k, n.toNat - 1 = k + 1 := ⟨n.toNat - 2, by omega⟩
  rw [hk, imulOuter, imulInner_none fuel 0 s.vec s.heap (List.length_pos_iff.2 hv)
    (fun o ho => Covered.live (Balanced.covered hb) ho)]

theorem resize_even (hb : Balanced ext s.heap s.vec) (H : OHost) (v : Int) :
    Even ext (resize H s (.int v)) ↔
      (0 ≤ v → FitsS 64 v → (∀ o ∈ s.vec.drop v.toNat, s.heap.imm o = true) ∧ (s.heap.imm H.none = true ∨ v ≤ s.vec.length)) := by
  by_cases hv : 0 ≤ v ∧ FitsS 64 v
  · have e : (asSsize (.int v)).1 = v := by unfold asSsize; simp [hv.2]
    have hr : resize H s (.int v) =
        .ok ⟨s.vec.take v.toNat ++ List.replicate (v.toNat - s.vec.length) H.none, s.heap⟩ .none := by
      unfold resize
      simp only [e]
      rw [if_neg (by omega)]
    rw [hr]
    have hcut : ∀ o, s.vec.count o = (s.vec.take v.toNat).count o + (s.vec.drop v.toNat).count o := by
      intro o
      rw [← List.count_append, List.take_append_drop]
    constructor
    · intro h _ _
      by_cases hle : v.toNat ≤ s.vec.length
      · refine ⟨fun o ho => ?_, .inr (by omega)⟩
        cases hi : s.heap.imm o with
        | true => rfl
        | false =>
          exfalso
          have p1 := h o hi
          have p2 := hb o hi
          have p3 := hcut o
          have p4 : 0 < (s.vec.drop v.toNat).count o := List.count_pos_iff.2 ho
          rw [Nat.sub_eq_zero_of_le hle] at p1
          simp only [Spec.receive, Spec.carried, List.count_nil, List.replicate_zero, List.append_nil] at p1
          omega
      · refine ⟨fun o ho => ?_, .inl ?_⟩
        · rw [List.drop_eq_nil_of_le (by omega)] at ho
          cases ho
        · cases hi : s.heap.imm H.none with
          | true => rfl
          | false =>
            exfalso
            have p1 := h H.none hi
            have p2 := hb H.none hi
            rw [List.take_of_length_le (by omega)] at p1
            simp only [Spec.receive, Spec.carried, List.count_nil, List.count_append, List.count_replicate_self] at p1
            omega
    · intro h o ho
      obtain ⟨a1, a2⟩ := h hv.1 hv.2
      simp only at ho
      have p2 := hb o ho
      have p3 := hcut o
      have p4 : (s.vec.drop v.toNat).count o = 0 := by
        rw [List.count_eq_zero]
        intro hm
        rw [a1 o hm] at ho
        cases ho
      have p5 : (List.replicate (v.toNat - s.vec.length) H.none).count o = 0 := by
        rw [List.count_eq_zero]
        intro hm
        obtain ⟨m1, rfl⟩ := List.mem_replicate.1 hm
        rcases a2 with a2 | a2
        · rw [a2] at ho; cases ho
        · omega
      simp only [Spec.receive, Spec.carried, List.count_nil, List.count_append]
      omega
  · refine iff_of_true ?_ (fun h1 h2 => absurd ⟨h1, h2⟩ hv)
    have : resize H s (.int v) = .exc s .valueError := by
      unfold resize
      simp only
      rw [if_pos]
      unfold asSsize
      by_cases hf : FitsS 64 v
      · simp only [hf, if_true]; exact Int.not_le.1 fun h => hv ⟨h, hf⟩
      · simp only [hf, if_false]; decide
    rw [this]
    exact even_exc _ hb

theorem step_even (cfg : Cfg) (H : OHost) (fuel : Nat) (hfu : 0 < fuel) (hb : Balanced ext s.heap s.vec)
    (hn : (s.vec.length : Int) ≤ ssizeMax) (op : OOp) (hh : Held ext s.heap op) :
    Even ext (step cfg H fuel s op) ↔ Keeps H s.heap.imm s.vec op := by
  have hc := Balanced.covered hb
  have ok : OpOk H s.heap.imm s.vec op → leaked s.vec op = [] → Even ext (step cfg H fuel s op) := fun h1 h2 =>
    even_does hb (h2 ▸ step_does cfg H fuel hfu hc h1 hh)
  cases op with
  | append o => exact iff_of_true (ok trivial rfl) trivial
  | insert i o => exact iff_of_true (ok trivial rfl) trivial
  | mul n => exact iff_of_true (ok trivial rfl) trivial
  | rmul a => exact iff_of_true (ok trivial rfl) trivial
  | reverse => exact iff_of_true (ok trivial rfl) trivial
  | clear => exact iff_of_true (ok trivial rfl) trivial
  | copy => exact iff_of_true (ok trivial rfl) trivial
  | toList => exact iff_of_true (ok trivial rfl) trivial
  | len => exact iff_of_true (ok trivial rfl) trivial
  | pop a => exact iff_of_true (pop_even hb a) trivial
  | remove o => exact iff_of_true (even_does hb (remove_does hc (idEq_apart H s.vec o))) trivial
  | count o => exact iff_of_true (even_same hb rfl) trivial
  | contains o =>
    refine iff_of_true ?_ trivial
    show Even ext (contains H s o)
    unfold contains
    split <;> exact even_same hb rfl
  | index o i j => exact iff_of_true (index_even hb o i j) trivial
  | cmp op src => exact iff_of_true (cmp_even hb H op src) trivial
  | add src =>
    refine iff_of_true ?_ trivial
    cases src with
    | same v => exact even_exc _ hb
    | self => exact even_exc _ hb
    | _ => exact ok ⟨by simp, by simp⟩ rfl
  | extend src =>
    by_cases hs : src = .self
    · subst hs
      exact iff_of_false id (fun h => h rfl)
    · exact iff_of_true (ok hs rfl) hs
  | iadd src =>
    by_cases hs : src = .self
    · subst hs
      refine iff_of_false (fun h => ?_) (fun h => h rfl)
      obtain ⟨h', e, -⟩ := inc_vec hc
      have : step cfg H fuel s (.iadd .self) = .ub .badIterator := by
        show withHeap (s.heap.increfs s.vec) _ = _
        rw [e]; rfl
      rw [this] at h
      exact h
    · refine iff_of_true ?_ hs
      by_cases hv : ∃ v, src = .same v
      · obtain ⟨v, rfl⟩ := hv
        have e : step cfg H fuel s (.iadd (.same v)) = step cfg H fuel s (.extend (.same v)) := rfl
        rw [e]
        exact even_does hb (step_does cfg H fuel hfu hc (op := .extend (.same v)) (by simp [OpOk]) hh)
      · exact ok ⟨hs, fun v h => hv ⟨v, h⟩⟩ rfl
  | get k =>
    cases k with
    | slice sl => exact iff_of_true (ok hn rfl) trivial
    | idx a =>
      by_cases ha : a = .other
      · subst ha; exact iff_of_false id (fun h => h rfl)
      · exact iff_of_true (ok ha rfl) ha
  | del k =>
    cases k with
    | idx a =>
      by_cases ha : a = .other
      · subst ha; exact iff_of_false id (fun h => h rfl)
      · exact iff_of_true (ok ha rfl) ha
    | slice sl =>
      by_cases hs : ∀ f, Spec.fields sl ≠ .ok f
      · exact iff_of_true (ok hs rfl) hs
      · refine iff_of_false (fun h => ?_) hs
        obtain ⟨u1, u2⟩ := sliceUnpack_fields sl
        have : step cfg H fuel s (.del (.slice sl)) = .ub .nullDeref := by
          show del s (.slice sl) = _
          simp only [del, u1]
          cases hf : Spec.fields sl with
          | error e => exact absurd (fun f h => by rw [hf] at h; cases h) hs
          | ok f => rfl
        rw [this] at h
        exact h
  | setItem a o =>
    by_cases ha : a = .other
    · subst ha; exact iff_of_false id (fun h => h.1 rfl)
    · rw [even_of hb (step_does cfg H fuel hfu hc (op := .setItem a o) ha hh)]
      constructor
      · intro h
        refine ⟨ha, fun i p old h1 h2 h3 => h old ?_⟩
        simp [leaked, h1, h2, h3]
      · rintro ⟨-, h⟩ x hx
        unfold leaked at hx
        cases h1 : Spec.word .indexError a with
        | error e => simp [h1] at hx
        | ok i =>
          simp only [h1] at hx
          cases h2 : Spec.position s.vec.length i with
          | none => simp [h2] at hx
          | some p =>
            simp only [h2, Option.bind_some] at hx
            exact h i p x h1 h2 (by simpa using hx)
  | setSlice sl src => exact slice_even hb hn sl src hh
  | imul n =>
    by_cases h1 : n ≤ 1 ∨ s.vec = []
    · rw [even_of hb (step_does cfg H fuel hfu hc (op := .imul n) h1 hh)]
      simp only [leaked, Keeps]
      by_cases h0 : n ≤ 0
      · simp only [h0, true_and]
        constructor
        · exact .inl
        · rintro (h | h | h)
          · exact h
          · omega
          · rw [h]; exact fun _ h => absurd h List.not_mem_nil
      · rw [if_neg h0]
        refine iff_of_true (fun _ h => absurd h List.not_mem_nil) (.inr ?_)
        rcases h1 with h1 | h1
        · exact .inl (by omega)
        · exact .inr h1
    · refine iff_of_false (fun h => ?_) ?_
      · have : step cfg H fuel s (.imul n) = .ub .neverReturns :=
          imul_ub hb fuel n (by omega) (fun h => h1 (.inr h))
        rw [this] at h
        exact h
      · rintro (⟨h, -⟩ | h | h)
        · exact h1 (.inl (by omega))
        · exact h1 (.inl (by omega))
        · exact h1 (.inr h)
  | resize a =>
    cases a with
    | int v => exact resize_even hb H v
    | index v => exact iff_of_true (even_exc _ hb) trivial
    | other => exact iff_of_true (even_exc _ hb) trivial

end Verif.ObjArray
