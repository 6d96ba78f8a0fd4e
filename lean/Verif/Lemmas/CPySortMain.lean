import Verif.Lemmas.CPySortPower

/-!
# `CPython_sort`
-/

namespace Verif.CPySort

open Verif.Spec

variable {σ ε α : Type}

theorem minrunLoop_le : ∀ (f n r : Nat), n ≤ f → r ≤ 1 → 1 ≤ n → 1 ≤ minrunLoop f n r ∧ minrunLoop f n r ≤ 64 := by
  intro f
  induction f with
  | zero => intro n r hf _ h1; omega
  | succ f ih =>
    intro n r hf hr h1
    unfold minrunLoop
    split
    · refine ih _ _ (by omega) ?_ (by omega)
      have : n % 2 = 0 ∨ n % 2 = 1 := by omega
      have : r = 0 ∨ r = 1 := by omega
      rcases ‹n % 2 = 0 ∨ n % 2 = 1› with h | h <;> rcases ‹r = 0 ∨ r = 1› with h' | h' <;> simp [h, h']
    · omega

theorem minrun_le {n : Nat} (h : 1 ≤ n) : 1 ≤ minrun n ∧ minrun n ≤ 64 :=
  minrunLoop_le n n 0 (Nat.le_refl _) (by omega) h

theorem nextRun_spec (h : Host σ ε) (lt : ε → ε → Bool) (O R : List ε) (mr lo nrem : Int) (s : St σ ε)
    (segs : List (List ε)) (inv : Inv h lt O segs R s) (top : Top O.length s.pending) (hlo : lo = (flat segs).length)
    (hnr : nrem = R.length) (hR : R ≠ []) (hm1 : 1 ≤ mr) (hm2 : mr ≤ 64) (hmax : O.length < 2 ^ 60) :
    Ok (nextRun h O.length mr lo nrem) s (fun r s' => (r = none → Broken h O s') ∧ ∀ k, r = some k → s'.err = s.err ∧
      ∃ segs' R', Inv h lt O segs' R' s' ∧ Top O.length s'.pending ∧ 1 ≤ k ∧ lo + k = (flat segs').length ∧
        nrem - k = R'.length) := by
  have hRl : 0 < R.length := List.length_pos_iff.2 hR
  unfold nextRun
  rw [ok_bind]
  refine (countRun_spec h lt (flat segs) R [] lo nrem s (by rw [inv.mem]; simp) hlo hnr hR).mono ?_
  rintro r s1 ⟨R1, q1, q2⟩
  have hmem1 : s1.mem = flat segs ++ R1 := by rw [q1.mem]; simp
  match r, q1, q2 with
  | none, q1, _ =>
    simp only [ok_pure]
    refine ⟨fun _ => ⟨q1.ends, ?_⟩, by simp⟩
    rw [hmem1]
    exact (List.Perm.append_left _ q1.perm).trans inv.perm
  | some k, q1, q2 =>
    obtain ⟨k1, k2, k3⟩ := q2 k rfl
    have e1 : s1.err = s.err := q1.ends
    have inv1 : Inv h lt O segs R1 s1 :=
      ⟨by rw [q1.rest.pending]; exact inv.stk, hmem1, (List.Perm.append_left _ q1.perm).trans inv.perm,
        fun G => ((SameOrder.refl _).append (q1.order rfl G)).trans (inv.order G)⟩
    have hR1 := q1.perm.length_eq
    simp only
    -- the rest, once the run has its final length `n` and content
    have rest : ∀ (n : Int) (s2 : St σ ε) (R2 : List ε), 1 ≤ n → n ≤ R2.length → R2.length = R.length →
        Inv h lt O segs R2 s2 → s2.pending = s.pending → s2.err = s.err → (Good h lt → SortedBy lt (R2.take n.toNat)) →
        Ok (do
          match (← get).pending with
          | [] => pure ()
          | top :: _ => check (top.base + top.len = lo) .assertion
          match ← foundNewRun h O.length n with
          | none => pure none
          | some _ =>
            check ((← get).pending.length < 64) .stackFull
            modify fun s => { s with pending := { base := lo, len := n, power := none } :: s.pending }
            pure (some n) : M σ ε (Option Int)) s2 (fun r s' => (r = none → Broken h O s') ∧ ∀ k, r = some k → s'.err = s.err ∧
          ∃ segs' R', Inv h lt O segs' R' s' ∧ Top O.length s'.pending ∧ 1 ≤ k ∧ lo + k = (flat segs').length ∧
          nrem - k = R'.length) := by
      intro n s2 R2 hn1 hn2 hR2 inv2 hp2 he2 hs2
      have top2 : Top O.length s2.pending := by rw [hp2]; exact top
      have body : Ok (do
          match ← foundNewRun h O.length n with
          | none => pure none
          | some _ =>
            check ((← get).pending.length < 64) .stackFull
            modify fun s => { s with pending := { base := lo, len := n, power := none } :: s.pending }
            pure (some n) : M σ ε (Option Int)) s2 (fun r s' => (r = none → Broken h O s') ∧ ∀ k, r = some k → s'.err = s.err ∧
          ∃ segs' R', Inv h lt O segs' R' s' ∧ Top O.length s'.pending ∧ 1 ≤ k ∧ lo + k = (flat segs').length ∧
          nrem - k = R'.length) := by
        rw [ok_bind]
        refine (foundNewRun_spec h lt O R2 n s2 segs inv2 top2 (by omega) hn2 hmax).mono ?_
        rintro r s3 ⟨f1, f2⟩
        match r, f1, f2 with
        | none, f1, _ =>
          show Ok (pure none) s3 _
          rw [ok_pure]
          exact ⟨fun _ => f1 rfl, by simp⟩
        | some _, _, f2 =>
          obtain ⟨e3, segs3, inv3, h64, bel⟩ := f2 rfl
          simp only
          rw [ok_bind, ok_get, ok_bind, ok_check]
          refine ⟨by simp only [decide_eq_true_eq]; exact h64, ?_⟩
          rw [ok_bind, ok_modify, ok_pure]
          refine ⟨by simp, ?_⟩
          rintro k' hk'
          simp only [Option.some.injEq] at hk'
          subst hk'
          have hl3 := inv3.perm.length_eq
          have hl2 := inv2.perm.length_eq
          simp only [List.length_append] at hl3 hl2
          have hfl : (flat segs3).length = (flat segs).length := by omega
          have htl : (R2.take n.toNat).length = n.toNat := by rw [List.length_take]; omega
          refine ⟨Eq.trans e3 he2, R2.take n.toNat :: segs3, R2.drop n.toNat, ⟨⟨?_, ?_, ?_, hs2, inv3.stk⟩, ?_, ?_, ?_⟩, ?_, hn1, ?_, ?_⟩
          · simp only [hlo, hfl]
          · simp only [htl]; omega
          · exact List.length_pos_iff.1 (by omega)
          · simp only [flat]
            rw [List.append_assoc, List.take_append_drop]
            exact inv3.mem
          · simp only [flat]
            rw [List.append_assoc, List.take_append_drop]
            exact inv3.perm
          · intro G
            simp only [flat]
            rw [List.append_assoc, List.take_append_drop]
            exact inv3.order G
          · simp only [Top]
            rw [hlo, ← hfl]
            exact bel
          · simp only [flat, List.length_append, htl]; omega
          · rw [List.length_drop]; omega
      rw [ok_bind, ok_get]
      cases hp : s2.pending with
      | nil =>
        simp only
        exact body
      | cons t rs =>
        have hk := inv2.stk
        rw [hp] at hk
        obtain ⟨g, gs, rfl⟩ := hk.cons_of
        obtain ⟨t1, t2, _⟩ := hk
        simp only
        rw [ok_bind, ok_check]
        refine ⟨?_, body⟩
        simp only [flat, List.length_append] at hlo
        simp only [decide_eq_true_eq]; omega
    by_cases hc : k < mr
    · simp only [if_pos hc]
      rw [ok_bind]
      generalize hforce : (if nrem ≤ mr then nrem else mr) = force
      have hf1 : k ≤ force ∧ force ≤ nrem ∧ force ≤ 64 := by
        rw [← hforce]; split <;> omega
      -- split R1 = S ++ T ++ rest
      have hsplit : R1 = (R1.take k.toNat ++ (R1.take force.toNat).drop k.toNat) ++ R1.drop force.toNat := by
        have : R1.take k.toNat = (R1.take force.toNat).take k.toNat := by
          rw [List.take_take, Nat.min_eq_left (by omega)]
        rw [this, List.take_append_drop, List.take_append_drop]
      have hSl : (R1.take k.toNat).length = k.toNat := by rw [List.length_take]; omega
      have hTl : ((R1.take force.toNat).drop k.toNat).length = force.toNat - k.toNat := by
        rw [List.length_drop, List.length_take]; omega
      refine (binarysort_spec h lt (flat segs) (R1.take k.toNat) ((R1.take force.toNat).drop k.toNat) (R1.drop force.toNat)
        lo force k s1 (by rw [hmem1, ← hsplit]) hlo (by omega) k1 (by omega) (by omega) k3).mono ?_
      rintro r s2 ⟨W, w1, w2⟩
      have hWl := w1.perm.length_eq
      rw [List.length_append, hSl, hTl] at hWl
      have perm2 : (W ++ R1.drop force.toNat).Perm R1 := by
        refine (List.Perm.append_right _ w1.perm).trans ?_
        rw [← hsplit]
      match r, w1, w2 with
      | none, w1, _ =>
        show Ok (pure none) s2 _
        rw [ok_pure]
        refine ⟨fun _ => ⟨w1.ends, ?_⟩, by simp⟩
        rw [w1.mem]
        exact (List.Perm.append_left _ perm2).trans inv1.perm
      | some _, w1, w2 =>
        refine rest force s2 (W ++ R1.drop force.toNat) (by omega) ?_ ?_ ⟨?_, w1.mem, ?_, ?_⟩ ?_ ?_ ?_
        · rw [perm2.length_eq]; omega
        · rw [perm2.length_eq]; omega
        · rw [w1.rest.pending]; exact inv1.stk
        · exact (List.Perm.append_left _ perm2).trans inv1.perm
        · intro G
          refine SameOrder.trans ?_ (inv1.order G)
          refine (SameOrder.refl _).append ?_
          have := (w1.order rfl G).append (SameOrder.refl (lt := lt) (R1.drop force.toNat))
          rwa [← hsplit] at this
        · rw [w1.rest.pending, q1.rest.pending]
        · exact Eq.trans w1.ends e1
        · intro G
          rw [List.take_left' (by omega)]
          exact w2 rfl G
    · simp only [if_neg hc]
      exact rest k s1 R1 k1 (by omega) hR1 inv1 q1.rest.pending e1 k3

theorem runLoop_spec (h : Host σ ε) (lt : ε → ε → Bool) (O : List ε) (mr : Int) (hm1 : 1 ≤ mr) (hm2 : mr ≤ 64)
    (hmax : O.length < 2 ^ 60) :
    ∀ (f : Nat) (lo nrem : Int) (s : St σ ε) (segs : List (List ε)) (R : List ε), Inv h lt O segs R s →
      Top O.length s.pending → lo = (flat segs).length → nrem = R.length → R ≠ [] → R.length + 1 ≤ f →
      Ok (runLoop h O.length mr f lo nrem) s (fun r s' => (r = none → Broken h O s') ∧ (r.isSome → s'.err = s.err ∧
        ∃ segs', Inv h lt O segs' [] s' ∧ Top O.length s'.pending)) := by
  intro f
  induction f with
  | zero => intro lo nrem s segs R _ _ _ _ _ hf; omega
  | succ f ih =>
    intro lo nrem s segs R inv top hlo hnr hR hf
    unfold runLoop
    rw [ok_bind]
    refine (nextRun_spec h lt O R mr lo nrem s segs inv top hlo hnr hR hm1 hm2 hmax).mono ?_
    rintro r s1 ⟨f1, f2⟩
    match r, f1, f2 with
    | none, f1, _ =>
      show Ok (pure none) s1 _
      rw [ok_pure]
      exact ⟨fun _ => f1 rfl, by simp⟩
    | some k, _, f2 =>
      obtain ⟨e1, segs1, R1, inv1, top1, k1, k2, k3⟩ := f2 k rfl
      simp only
      split
      · rw [ok_pure]
        have : R1 = [] := List.eq_nil_of_length_eq_zero (by omega)
        subst this
        exact ⟨by simp, fun _ => ⟨e1, segs1, inv1, top1⟩⟩
      · rename_i h0
        refine (ih _ _ s1 segs1 R1 inv1 top1 k2 k3 (List.length_pos_iff.1 (by omega)) (by omega)).mono ?_
        rintro r s2 ⟨g1, g2⟩
        refine ⟨g1, fun hr => ?_⟩
        obtain ⟨e2, rest⟩ := g2 hr
        exact ⟨Eq.trans e2 e1, rest⟩

theorem forceCollapse_spec (h : Host σ ε) (lt : ε → ε → Bool) (O : List ε) (hmax : O.length < 2 ^ 60) :
    ∀ (f : Nat) (s : St σ ε) (segs : List (List ε)), Inv h lt O segs [] s → s.pending.length + 1 ≤ f →
      Ok (forceCollapse h f) s (fun r s' => (r = none → Broken h O s') ∧ (r.isSome → s'.err = s.err ∧
        ∃ segs', Inv h lt O segs' [] s' ∧ s'.pending.length ≤ 1)) := by
  intro f
  induction f with
  | zero => intro s segs _ hf; omega
  | succ f ih =>
    intro s segs inv hf
    have hlen : s.mem.length < 2 ^ 60 := by rw [inv.mem, inv.perm.length_eq]; exact hmax
    -- one merge and the rest of the loop
    have step : ∀ (third : Bool) (pending : List Run), pending.length + 1 ≤ f →
        Ok (mergeAt h third) s (Merge1 h lt segs [] pending s) →
        Ok (do match ← mergeAt h third with
          | none => pure none
          | some _ => forceCollapse h f) s (fun r s' => (r = none → Broken h O s') ∧ (r.isSome → s'.err = s.err ∧
        ∃ segs', Inv h lt O segs' [] s' ∧ s'.pending.length ≤ 1)) := by
      intro third pending hpl hm
      rw [ok_bind]
      refine hm.mono ?_
      rintro r s1 ⟨p1, e1, segs1, m1, pm1, k1⟩
      have perm1 : (flat segs1 ++ []).Perm O := (List.Perm.append_right _ pm1).trans inv.perm
      match r, e1, k1 with
      | none, e1, _ =>
        show Ok (pure none) s1 _
        rw [ok_pure]
        exact ⟨fun _ => ⟨e1, by rw [m1]; exact perm1⟩, by simp⟩
      | some _, e1, k1 =>
        obtain ⟨k1, o1⟩ := k1 rfl
        have inv1 : Inv h lt O segs1 [] s1 :=
          ⟨by rw [p1]; exact k1, m1, perm1, fun G => ((o1 G).append (SameOrder.refl [])).trans (inv.order G)⟩
        refine (ih s1 segs1 inv1 (by rw [p1]; exact hpl)).mono ?_
        rintro r s2 ⟨g1, g2⟩
        refine ⟨g1, fun hr => ?_⟩
        obtain ⟨e2, rest⟩ := g2 hr
        exact ⟨Eq.trans e2 e1, rest⟩
    unfold forceCollapse
    rw [ok_bind, ok_get]
    match hp : s.pending with
    | [] =>
      show Ok (pure (some ())) s _
      rw [ok_pure]
      exact ⟨by simp, fun _ => ⟨rfl, segs, inv, by simp [hp]⟩⟩
    | [r] =>
      show Ok (pure (some ())) s _
      rw [ok_pure]
      exact ⟨by simp, fun _ => ⟨rfl, segs, inv, by simp [hp]⟩⟩
    | [b, a] =>
      exact step false _ (by rw [hp] at hf; simpa using hf) (mergeAt_spec h lt [] s a b [] segs hp inv.stk inv.mem hlen)
    | c :: b :: a :: rest =>
      rw [hp] at hf
      simp only
      by_cases hc : a.len < c.len
      · rw [decide_eq_true hc]
        exact step true _ (by simp at hf ⊢; omega) (mergeAt3_spec h lt [] s a b c rest segs hp inv.stk inv.mem hlen)
      · rw [decide_eq_false hc]
        exact step false _ (by simp at hf ⊢; omega) (mergeAt_spec h lt [] s b c (a :: rest) segs hp inv.stk inv.mem hlen)

/-- The main part of the sort, for items `O` already in the order in which they are to be kept stable. -/
theorem collapse_spec (h : Host σ ε) (lt : ε → ε → Bool) (O : List ε) (s : St σ ε) (hs : s.mem = O) (hp : s.pending = [])
    (h2 : 2 ≤ O.length) (hmax : O.length < 2 ^ 60) :
    Ok (do
      match ← runLoop h O.length (minrun O.length) (O.length + 1) 0 O.length with
      | none => pure none
      | some _ =>
        match ← forceCollapse h 66 with
        | none => pure none
        | some _ =>
          match (← get).pending with
          | [r] => check (r.base = 0 ∧ r.len = O.length) .assertion
          | _ => fun _ => .error .assertion
          pure (some ()) : M σ ε (Option Unit)) s (fun r s' => (r = none → Broken h O s') ∧ (r.isSome → s'.err = s.err ∧
        s'.mem.Perm O ∧ (Good h lt → StableSort lt O s'.mem))) := by
  have hmr := minrun_le (n := O.length) (by omega)
  rw [ok_bind]
  have inv0 : Inv h lt O [] O s := ⟨by rw [hp]; trivial, by rw [hs]; rfl, List.Perm.refl _, fun _ => SameOrder.refl _⟩
  refine (runLoop_spec h lt O (minrun O.length) (by omega) (by omega) hmax _ _ _ s [] O inv0 (by rw [hp]; trivial) rfl rfl
    (List.length_pos_iff.1 (by omega)) (Nat.le_refl _)).mono ?_
  rintro r s1 ⟨f1, f2⟩
  match r, f1, f2 with
  | none, f1, _ =>
    show Ok (pure none) s1 _
    rw [ok_pure]
    exact ⟨fun _ => f1 rfl, by simp⟩
  | some _, _, f2 =>
    obtain ⟨e1, segs1, inv1, top1⟩ := f2 rfl
    simp only
    rw [ok_bind]
    have hheight : s1.pending.length + 1 ≤ 66 := by
      cases hp1 : s1.pending with
      | nil => simp
      | cons t rs =>
        rw [hp1] at top1
        have := Below.height top1 (by omega)
        simp only [List.length_cons]; omega
    refine (forceCollapse_spec h lt O hmax 66 s1 segs1 inv1 hheight).mono ?_
    rintro r s2 ⟨g1, g2⟩
    match r, g1, g2 with
    | none, g1, _ =>
      show Ok (pure none) s2 _
      rw [ok_pure]
      exact ⟨fun _ => g1 rfl, by simp⟩
    | some _, _, g2 =>
      obtain ⟨e2, segs2, inv2, hle⟩ := g2 rfl
      simp only
      rw [ok_bind, ok_get]
      have hk := inv2.stk
      have hl := inv2.perm.length_eq
      match hp2 : s2.pending, segs2, hk, hl with
      | [], [], _, hl => simp [flat] at hl; omega
      | [r], [g], ⟨r1, r2, r3, r4, _⟩, hl =>
        simp only [flat, List.length_append, List.length_nil, List.nil_append] at r1 hl
        simp only
        rw [ok_bind, ok_check]
        refine ⟨by simp only [decide_eq_true_eq]; omega, ?_⟩
        rw [ok_pure]
        have hm : s2.mem = g := by rw [inv2.mem]; simp [flat]
        have hpm := inv2.perm
        simp only [flat, List.nil_append, List.append_nil] at hpm
        refine ⟨by simp, fun _ => ⟨Eq.trans e2 e1, by rw [hm]; exact hpm, fun G => ?_⟩⟩
        rw [hm]
        have ho := inv2.order G
        simp only [flat, List.nil_append, List.append_nil] at ho
        exact ⟨hpm, r4 G, ho⟩
      | _ :: _ :: _, _, _, _ => rw [hp2] at hle; simp at hle

/-- What `listsort` leaves: for `reverse`, the sorted reversed list, to be reversed once more. -/
theorem listsort_spec (h : Host σ ε) (lt : ε → ε → Bool) (O : List ε) (rev : Bool) (s : St σ ε) (hs : s.mem = O)
    (hp : s.pending = []) (hmax : O.length < 2 ^ 60) :
    Ok (listsort h O.length rev) s (fun r s' => s'.mem.Perm O ∧ (r = none → Raised h s') ∧
      (r.isSome → s'.err = s.err ∧ (Good h lt → StableSort lt (if rev && decide (1 < O.length) then O.reverse else O) s'.mem))) := by
  unfold listsort
  split
  · rename_i h2
    rw [ok_pure]
    rw [hs]
    refine ⟨List.Perm.refl _, by simp, fun _ => ⟨rfl, fun G => ?_⟩⟩
    have : ¬ 1 < O.length := by omega
    simp only [this, decide_false, Bool.and_false, Bool.false_eq_true, if_false]
    refine ⟨List.Perm.refl _, ?_, SameOrder.refl _⟩
    match O, h2 with
    | [], _ => exact sortedBy_nil
    | [x], _ => exact sortedBy_singleton x
    | _ :: _ :: _, h2 => simp at h2; omega
  · rename_i h2
    have hgt : 1 < O.length := by omega
    simp only [hgt, decide_true, Bool.and_true, Int.toNat_natCast]
    cases rev with
    | true =>
      simp only [if_true]
      rw [ok_bind]
      refine (reverseSlice_spec [] O [] 0 O.length s (by simp [hs]) rfl rfl).mono ?_
      rintro _ s1 rfl
      have := collapse_spec h lt O.reverse { s with mem := [] ++ (O.reverse ++ []) } (by simp) hp (by rw [List.length_reverse]; omega) (by simpa using hmax)
      simp only [List.length_reverse] at this
      refine this.mono ?_
      rintro r s2 ⟨f1, f2⟩
      cases r with
      | none => exact ⟨(f1 rfl).2.trans (List.reverse_perm O), fun _ => (f1 rfl).1, by simp⟩
      | some _ =>
        obtain ⟨e, p, st⟩ := f2 rfl
        exact ⟨p.trans (List.reverse_perm O), by simp, fun _ => ⟨e, st⟩⟩
    | false =>
      simp only [Bool.false_eq_true, if_false]
      refine (collapse_spec h lt O s hs hp (by omega) hmax).mono ?_
      rintro r s2 ⟨f1, f2⟩
      cases r with
      | none => exact ⟨(f1 rfl).2, fun _ => (f1 rfl).1, by simp⟩
      | some _ =>
        obtain ⟨e, p, st⟩ := f2 rfl
        exact ⟨p, by simp, fun _ => ⟨e, st⟩⟩

end Verif.CPySort
