import Verif.Lemmas.GfxHi
import Verif.Lemmas.CPySortMain

/-!
# `gfx::timsort`: runs, the stack, and the whole sort
-/

namespace Verif.Gfx

open Verif.Spec CPySort

variable {σ ε α : Type}

theorem mergeRuns_spec (h : Host σ ε) (lt : ε → ε → Bool) (nr : ∀ s, ¬ Raised h s) (P A B R : List ε) (ssa na ssb nb : Int) (s : St σ ε)
    (hmem : s.mem = P ++ (A ++ (B ++ R))) (hssa : ssa = P.length) (hna : na = A.length)
    (hssb : ssb = (P.length + A.length : Nat)) (hnb : nb = B.length) (hA : A ≠ []) (hB : B ≠ [])
    (hmax : A.length + B.length < 2 ^ 60)
    (sa : Good h lt → SortedBy lt A) (sb : Good h lt → SortedBy lt B) :
    Ok (mergeRuns h ssa na ssb nb) s (fun r s' => ∃ W, Merged h lt P (A ++ B) R s r s' W) := by
  have hAl : 0 < A.length := List.length_pos_iff.2 hA
  have hBl : 0 < B.length := List.length_pos_iff.2 hB
  obtain ⟨b, B', hBe⟩ : ∃ b B', B = b :: B' := List.exists_cons_of_ne_nil hB
  unfold mergeRuns
  rw [ok_bind, ok_rdm]
  have hg := mid_get (P := P ++ A) (x := b) (R := B' ++ R) (i := ssb) (by rw [hssb, List.length_append])
  refine ⟨hg.1, b, by rw [hmem, hBe]; simpa using hg.2, ?_⟩
  rw [ok_bind, ok_get, ok_bind]
  refine (gallopRight_spec h lt b _ P A (B ++ R) ssa na 0 hmem hssa hna (by omega) (by omega) (by omega) sa _).mono ?_
  rintro r s1 ⟨c, e, g⟩
  match r, g, e with
  | none, _, e =>
    simp only [ok_pure]
    exact ⟨A ++ B, c.pending, by rw [c.mem, hmem]; simp, List.Perm.refl _, e, by simp, by simp⟩
  | some k, g, e =>
    obtain ⟨X, Y, rfl, hk, hXY⟩ := g k rfl
    -- everything in B is at least b, hence not before anything in X
    have hBX : Good h lt → ∀ x ∈ X, ∀ y ∈ B, lt y x = false := by
      intro G x hx y hy
      have h1 : lt b x = false := by simpa using (hXY G).1 x hx
      have h2 := sb G
      rw [hBe, sortedBy_cons] at h2
      rw [hBe] at hy
      rcases List.mem_cons.1 hy with rfl | hy
      · exact h1
      · exact G.sw.negTrans y b x (h2.1 y hy) h1
    have e' : s1.err = s.err := e
    simp only [List.length_append] at hAl hssb hna hmax
    simp only
    split
    · rename_i h0
      rw [ok_pure]
      have hY : Y = [] := List.eq_nil_of_length_eq_zero (by omega)
      subst hY
      refine ⟨X ++ [] ++ B, c.pending, by rw [c.mem, hmem]; simp, List.Perm.refl _, e', fun _ _ => SameOrder.refl _, ?_⟩
      intro _ G
      rw [sortedBy_append]
      refine ⟨sa G, sb G, ?_⟩
      intro x hx
      exact hBX G x (by simpa using hx)
    · rename_i h0
      obtain ⟨Y', y, hYe⟩ := snoc_of_pos (l := Y) (by omega)
      rw [ok_bind, ok_rdm]
      have hYl : Y.length = Y'.length + 1 := by rw [hYe]; simp
      have hg := mid_get (P := P ++ X ++ Y') (x := y) (R := B ++ R) (i := ssa + k + (na - k - 1)) (by
        simp only [List.length_append]; omega)
      refine ⟨hg.1, y, by rw [c.mem, hmem, hYe]; simpa using hg.2, ?_⟩
      rw [ok_bind, ok_get, ok_bind]
      refine (gallopLeft_spec h lt y _ (P ++ (X ++ Y)) B R ssb nb (nb - 1) (by rw [c.mem, hmem]; simp) ?_ hnb (by omega)
        (by omega) (by omega) sb _).mono ?_
      · rw [hssb]; simp only [List.length_append]
      rintro r s2 ⟨c2, e2, g2⟩
      match r, g2, e2 with
      | none, _, e2 =>
        simp only [ok_pure]
        refine ⟨X ++ Y ++ B, c2.pending.trans c.pending, by rw [c2.mem, c.mem, hmem]; simp, List.Perm.refl _, e2, by simp, by simp⟩
      | some k2, g2, e2 =>
        obtain ⟨X2, Y2, hBe2, hk2, hXY2⟩ := g2 k2 rfl
        have e2' : s2.err = s.err := Eq.trans e2 e'
        have hsA := fun G => sortedBy_append.1 (sa G)
        have hsB := fun G => sortedBy_append.1 (hBe2 ▸ sb G)
        -- nothing in Y2 is before anything in Y
        have hY2 : Good h lt → ∀ u ∈ Y, ∀ w ∈ Y2, lt w u = false := by
          intro G u hu w hw
          have h1 : lt w y = false := by simpa using (hXY2 G).2 w hw
          have h2 := (hsA G).2.1
          rw [hYe] at h2 hu
          rcases List.mem_append.1 hu with hu | hu
          · exact G.sw.negTrans w y u h1 ((sortedBy_append.1 h2).2.2 u hu y (by simp))
          · rw [List.mem_singleton.1 hu]; exact h1
        simp only
        split
        · rename_i h2
          rw [ok_pure]
          have hX2 : X2 = [] := List.eq_nil_of_length_eq_zero (by omega)
          refine ⟨X ++ Y ++ B, c2.pending.trans c.pending, by rw [c2.mem, c.mem, hmem]; simp, List.Perm.refl _, e2',
            fun _ _ => SameOrder.refl _, ?_⟩
          intro _ G
          rw [sortedBy_append]
          refine ⟨sa G, sb G, ?_⟩
          intro u hu w hw
          rcases List.mem_append.1 hu with hu | hu
          · exact hBX G u hu w hw
          · exact hY2 G u hu w (by rw [hBe2, hX2] at hw; simpa using hw)
        · rename_i h2
          have hX2 : X2 ≠ [] := List.length_pos_iff.1 (by omega)
          have hYne : Y ≠ [] := List.length_pos_iff.1 (by omega)
          have hmem2 : s2.mem = (P ++ X) ++ (Y ++ (X2 ++ (Y2 ++ R))) := by
            rw [c2.mem, c.mem, hmem, hBe2]; simp
          have hlast : Good h lt → ∀ x, Y.getLast? = some x → ∀ b ∈ X2, lt b x = true := by
            intro G x hx w hw
            rw [hYe] at hx
            simp at hx
            subst hx
            simpa using (hXY2 G).1 w hw
          have hfirst : Good h lt → ∀ w, X2.head? = some w → ∀ a ∈ Y, lt w a = true := by
            intro G w hw a ha
            have : B.head? = some w := by rw [hBe2, List.head?_append, hw]; rfl
            rw [hBe] at this
            simp at this
            subst this
            simpa using (hXY G).2 a ha
          have hlen : B.length = X2.length + Y2.length := by rw [hBe2]; simp
          have fin : ∀ r s3, (∃ W, Merged h lt (P ++ X) (Y ++ X2) (Y2 ++ R) s2 r s3 W) →
              ∃ W, Merged h lt P (X ++ Y ++ B) R s (r : Option Unit) s3 W := by
            rintro r s3 ⟨W, mg⟩
            refine ⟨X ++ (W ++ Y2), mg.pending.trans (c2.pending.trans c.pending), by rw [mg.mem]; simp, ?_,
              mg.ends.weaken e2', ?_, ?_⟩
            · rw [hBe2, List.append_assoc]
              refine List.Perm.append_left _ ?_
              rw [← List.append_assoc]
              exact List.Perm.append_right _ mg.perm
            · intro hr G
              rw [hBe2, List.append_assoc]
              refine (SameOrder.refl X).append ?_
              rw [← List.append_assoc]
              exact (mg.order hr G).append (SameOrder.refl Y2)
            · intro hr G
              have hW : ∀ w ∈ W, w ∈ Y ∨ w ∈ X2 := fun w hw => List.mem_append.1 (mg.perm.mem_iff.1 hw)
              rw [sortedBy_append, sortedBy_append]
              refine ⟨(hsA G).1, ⟨mg.sorted hr G, (hsB G).2.1, ?_⟩, ?_⟩
              · intro u hu w hw
                rcases hW u hu with hu | hu
                · exact hY2 G u hu w hw
                · exact (hsB G).2.2 u hu w hw
              · intro u hu w hw
                have : w ∈ Y ∨ w ∈ B := by
                  rcases List.mem_append.1 hw with hw | hw
                  · rcases hW w hw with hw | hw
                    · exact Or.inl hw
                    · exact Or.inr (by rw [hBe2]; exact List.mem_append_left _ hw)
                  · exact Or.inr (by rw [hBe2]; exact List.mem_append_right _ hw)
                rcases this with hw | hw
                · exact (hsA G).2.2 u hu w hw
                · exact hBX G u hu w hw
          split
          · refine (mergeLo_spec h lt nr (P ++ X) Y X2 (Y2 ++ R) _ _ _ _ s2 hmem2 (by simp only [List.length_append]; omega)
              (by omega) (by simp only [List.length_append]; omega) hk2 hYne hX2 (by omega)
              (fun G => (hsA G).2.1) (fun G => (hsB G).1) hlast hfirst).mono fin
          · refine (mergeHi_spec h lt nr (P ++ X) Y X2 (Y2 ++ R) _ _ _ _ s2 hmem2 (by simp only [List.length_append]; omega)
              (by omega) (by simp only [List.length_append]; omega) hk2 hYne hX2 (by omega)
              (fun G => (hsA G).2.1) (fun G => (hsB G).1) hlast hfirst).mono fin

theorem mergeAt_spec (h : Host σ ε) (lt : ε → ε → Bool) (nr : ∀ s, ¬ Raised h s) (R : List ε) (s : St σ ε) (a b : Run) (rest : List Run)
    (segs : List (List ε)) (hp : s.pending = b :: a :: rest) (hs : Stk h lt s.pending segs)
    (hmem : s.mem = flat segs ++ R) (hmax : s.mem.length < 2 ^ 60) :
    Ok (mergeAt h false) s (Merge1 h lt segs R ({ a with len := a.len + b.len } :: rest) s) := by
  rw [hp] at hs
  match segs, hs, hmem with
  | gb :: ga :: gs, hs, hmem =>
    obtain ⟨b1, b2, b3, b4, a1, a2, a3, a4, hs⟩ := hs
    have hla : 0 < ga.length := List.length_pos_iff.2 a3
    have hlb : 0 < gb.length := List.length_pos_iff.2 b3
    simp only [flat, List.length_append] at hmem a1 b1
    unfold mergeAt
    rw [ok_bind, ok_get, hp]
    simp only
    rw [ok_bind, ok_check]
    refine ⟨by simp only [decide_eq_true_eq]; omega, ?_⟩
    rw [ok_bind, ok_modify]
    have hl : s.mem.length = (flat gs).length + ga.length + gb.length + R.length := by rw [hmem]; simp only [List.length_append]
    refine (mergeRuns_spec h lt nr (flat gs) ga gb R _ _ _ _ _ (by simp only; rw [hmem]; simp) a1 a2 b1 b2 a3 b3 (by omega)
      a4 b4).mono ?_
    rintro r s' ⟨W, mg⟩
    refine ⟨mg.pending, ?_, W :: gs, ?_, ?_, ?_⟩
    · cases r with
      | none => exact mg.ends
      | some _ => exact mg.ends
    · rw [mg.mem]; simp [flat]
    · simp only [flat, List.append_assoc]
      exact List.Perm.append_left _ mg.perm
    · intro hr
      have hWl := mg.perm.length_eq
      refine ⟨⟨a1, ?_, ?_, fun G => mg.sorted hr G, hs⟩, fun G => ?_⟩
      · simp only [hWl, List.length_append]; omega
      · refine List.length_pos_iff.1 ?_
        rw [hWl, List.length_append]; omega
      · simp only [flat, List.append_assoc]
        exact (SameOrder.refl _).append (mg.order hr G)

theorem mergeAt3_spec (h : Host σ ε) (lt : ε → ε → Bool) (nr : ∀ s, ¬ Raised h s) (R : List ε) (s : St σ ε) (a b c : Run) (rest : List Run)
    (segs : List (List ε)) (hp : s.pending = c :: b :: a :: rest) (hs : Stk h lt s.pending segs)
    (hmem : s.mem = flat segs ++ R) (hmax : s.mem.length < 2 ^ 60) :
    Ok (mergeAt h true) s (Merge1 h lt segs R (c :: { a with len := a.len + b.len } :: rest) s) := by
  rw [hp] at hs
  match segs, hs, hmem with
  | gc :: gb :: ga :: gs, hs, hmem =>
    obtain ⟨c1, c2, c3, c4, b1, b2, b3, b4, a1, a2, a3, a4, hs⟩ := hs
    have hla : 0 < ga.length := List.length_pos_iff.2 a3
    have hlb : 0 < gb.length := List.length_pos_iff.2 b3
    simp only [flat, List.length_append] at hmem a1 b1 c1
    unfold mergeAt
    rw [ok_bind, ok_get, hp]
    simp only
    rw [ok_bind, ok_check]
    refine ⟨by simp only [decide_eq_true_eq]; omega, ?_⟩
    rw [ok_bind, ok_modify]
    have hl : s.mem.length = (flat gs).length + ga.length + gb.length + gc.length + R.length := by
      rw [hmem]; simp only [List.length_append]
    refine (mergeRuns_spec h lt nr (flat gs) ga gb (gc ++ R) _ _ _ _ _ (by simp only; rw [hmem]; simp) a1 a2 b1 b2 a3 b3
      (by omega) a4 b4).mono ?_
    rintro r s' ⟨W, mg⟩
    refine ⟨mg.pending, ?_, gc :: W :: gs, ?_, ?_, ?_⟩
    · cases r with
      | none => exact mg.ends
      | some _ => exact mg.ends
    · rw [mg.mem]; simp [flat]
    · simp only [flat]
      refine List.Perm.append_right _ ?_
      rw [List.append_assoc]
      exact List.Perm.append_left _ mg.perm
    · intro hr
      have hWl := mg.perm.length_eq
      refine ⟨⟨?_, c2, c3, c4, a1, ?_, ?_, fun G => mg.sorted hr G, hs⟩, fun G => ?_⟩
      · simp only [flat, List.length_append, hWl, c1]; omega
      · simp only [hWl, List.length_append]; omega
      · refine List.length_pos_iff.1 ?_
        rw [hWl, List.length_append]; omega
      · simp only [flat]
        refine SameOrder.append ?_ (SameOrder.refl _)
        rw [List.append_assoc]
        exact (SameOrder.refl _).append (mg.order hr G)

theorem descend_spec (h : Host σ ε) (lt : ε → ε → Bool) (P R : List ε) (lo nrem : Int) (hlo : lo = P.length) :
    ∀ (f : Nat) (n : Int) (C T : List ε) (x : ε) (s : St σ ε), s.mem = P ++ ((C ++ [x]) ++ (T ++ R)) →
      Desc h lt C [x] (C ++ [x]) → n = C.length + 1 → nrem = n + T.length → T.length + 1 ≤ f →
      Ok (descend h lo nrem f n) s (fun r s' => Calm s s' ∧ Ends h s r s' ∧ ∀ n', r = some n' →
        ∃ C' x' T', (C ++ [x]) ++ T = (C' ++ [x']) ++ T' ∧ Desc h lt C' [x'] (C' ++ [x']) ∧ n' = C'.length + 1 ∧
          nrem = n' + T'.length) := by
  intro f
  induction f with
  | zero => intro n C T x s _ _ _ _ hf; omega
  | succ f ih =>
    intro n C T x s hm d hn hr hf
    unfold descend
    split
    · rename_i hlt
      match T, hm, hr, hf with
      | [], _, hr, _ => simp at hr; omega
      | y :: T, hm, hr, hf =>
        simp only [List.length_cons] at hr hf
        rw [ok_bind, ok_rdm]
        have g1 := mid_get (P := P ++ (C ++ [x])) (x := y) (R := T ++ R) (i := lo + n) (by simp; omega)
        refine ⟨g1.1, y, by rw [hm]; simpa using g1.2, ?_⟩
        rw [ok_bind, ok_rdm]
        have g2 := mid_get (P := P ++ C) (x := x) (R := y :: T ++ R) (i := lo + (n - 1)) (by simp; omega)
        refine ⟨g2.1, x, by rw [hm]; simpa using g2.2, ?_⟩
        rw [ok_bind]
        refine ok_islt h lt _ _ s _ (fun b s2 c2 e2 g => ?_) (fun s2 c2 e2 _ => ?_)
        · cases b with
          | true =>
            simp only
            have d' : Desc h lt (C ++ [x]) [y] ((C ++ [x]) ++ [y]) := by
              simpa using Desc.smaller (l := x) d (by simp) (fun G => (g G).symm)
            refine (ih (n + 1) (C ++ [x]) T y s2 (by rw [c2.mem, hm]; simp) d' (by simp; omega) (by omega) (by omega)).mono ?_
            rintro r s3 ⟨c3, e3, g3⟩
            refine ⟨c2.trans c3, Ends.trans e2 e3, fun n' hn' => ?_⟩
            obtain ⟨C', x', T', q1, q2⟩ := g3 n' hn'
            exact ⟨C', x', T', by rw [← q1]; simp, q2⟩
          | false =>
            simp only [ok_pure]
            refine ⟨c2, e2, fun n' hn' => ?_⟩
            cases hn'
            exact ⟨C, x, y :: T, rfl, d, hn, by simp; omega⟩
        · simp only [ok_pure]
          exact ⟨c2, e2, by simp⟩
    · rw [ok_pure]
      refine ⟨Calm.refl _, rfl, fun n' hn' => ?_⟩
      cases hn'
      exact ⟨C, x, T, rfl, d, hn, hr⟩

theorem countRun_spec (h : Host σ ε) (lt : ε → ε → Bool) (P W R : List ε) (lo nrem : Int) (s : St σ ε)
    (hm : s.mem = P ++ (W ++ R)) (hlo : lo = P.length) (hn : nrem = W.length) (hne : W ≠ []) :
    Ok (countRun h lo nrem) s (RunPost h lt P W R s) := by
  have hpos := List.length_pos_iff.2 hne
  have hfail : ∀ s2 : St σ ε, Calm s s2 → Raised h s2 → RunPost h lt P W R s none s2 := by
    intro s2 c2 e2
    exact ⟨W, ⟨c2.rest, by rw [c2.mem, hm], List.Perm.refl _, e2, by simp⟩, by simp⟩
  unfold countRun
  simp only [ok_bind, ok_check, decide_eq_true_eq]
  refine ⟨by omega, ?_⟩
  split
  · rename_i h1
    rw [ok_pure]
    refine ⟨W, ⟨Rest.refl _, hm, List.Perm.refl _, rfl, fun _ _ => SameOrder.refl _⟩, ?_⟩
    intro k hk
    cases hk
    refine ⟨by omega, by omega, fun G => ?_⟩
    match W, hne with
    | w :: W, _ => exact sortedBy_singleton w
  · rename_i h1
    match W, hne with
    | [w], _ => simp at hn; omega
    | w0 :: w1 :: T, _ =>
      simp only [List.length_cons] at hn
      rw [ok_bind, ok_rdm]
      have g1 := mid_get (P := P ++ [w0]) (x := w1) (R := T ++ R) (i := lo + 1) (by simp; omega)
      refine ⟨g1.1, w1, by rw [hm]; simpa using g1.2, ?_⟩
      rw [ok_bind, ok_rdm]
      have g0 := mid_get (P := P) (x := w0) (R := w1 :: T ++ R) (i := lo) hlo
      refine ⟨g0.1, w0, by rw [hm]; simpa using g0.2, ?_⟩
      rw [ok_bind]
      refine ok_islt h lt _ _ s _ (fun b s2 c2 e2 g => ?_) (fun s2 c2 e2 _ => ?_)
      · cases b with
        | true =>
          simp only
          rw [ok_bind]
          have d0 : Desc h lt [] [w0] [w0] := ⟨by simp, by simp, fun _ => sortedBy_singleton _, fun _ => by simpa using SameOrder.refl _,
            by simp, fun G e he e' he' => by
              rw [List.mem_singleton.1 he, List.mem_singleton.1 he']; exact G.sw.irrefl _⟩
          have d1 : Desc h lt [w0] [w1] ([w0] ++ [w1]) := by
            simpa using Desc.smaller (l := w0) d0 (by simp) (fun G => (g G).symm)
          refine (descend_spec h lt P R lo nrem hlo _ 2 [w0] T w1 s2 (by rw [c2.mem, hm]; simp) d1 (by simp) (by omega)
            (by omega)).mono ?_
          rintro r s3 ⟨c3, e3, g3⟩
          match r, e3, g3 with
          | none, e3, _ =>
            simp only [ok_pure]
            exact hfail _ (c2.trans c3) e3
          | some n, e3, g3 =>
            obtain ⟨C', x', T', q1, q2, q3, q4⟩ := g3 n rfl
            have hW : w0 :: w1 :: T = (C' ++ [x']) ++ T' := by rw [← q1]; simp
            simp only
            rw [ok_bind]
            refine (reverseSlice_spec P (C' ++ [x']) (T' ++ R) lo n s3 (by
              rw [c3.mem, c2.mem, hm, hW]; simp) hlo (by simp; omega)).mono ?_
            rintro _ s4 rfl
            rw [ok_pure, hW]
            have e0 : (C' ++ [x']).reverse = [x'] ++ C'.reverse := by simp
            refine ⟨(C' ++ [x']).reverse ++ T', ⟨?_, ?_, ?_, ?_, ?_⟩, ?_⟩
            · exact ⟨(c2.trans c3).minGallop, (c2.trans c3).alloced, (c2.trans c3).pending⟩
            · simp
            · exact List.Perm.append_right _ (List.reverse_perm _)
            · exact Eq.trans e3 e2
            · intro _ G
              rw [e0]
              exact (q2.order G).append (SameOrder.refl _)
            · intro k hk
              cases hk
              refine ⟨by omega, by simp; omega, fun G => ?_⟩
              rw [List.take_left' (by simp; omega), e0]
              exact q2.sorted G
        | false =>
          simp only
          refine (ascend_spec h lt P (w0 :: w1 :: T) R lo nrem hlo (by simp; omega) _ 2 s2 (by rw [c2.mem, hm]) (by omega)
            (by omega) (by omega)).mono ?_
          rintro r s3 ⟨c3, e3, g3⟩
          match r, e3, g3 with
          | none, e3, _ => exact hfail _ (c2.trans c3) e3
          | some n, e3, g3 =>
            refine ⟨_, ⟨(c2.trans c3).rest, by rw [c3.mem, c2.mem, hm], List.Perm.refl _, Eq.trans e3 e2,
              fun _ _ => SameOrder.refl _⟩, ?_⟩
            intro k hk
            cases hk
            obtain ⟨n1, n2, n3, _⟩ := g3 n rfl
            refine ⟨by omega, by simp; omega, fun G => n3 G ?_⟩
            show SortedBy lt [w0, w1]
            rw [sortedBy_cons]
            exact ⟨fun y hy => by rw [List.mem_singleton.1 hy]; exact (g G).symm, sortedBy_singleton _⟩
      · simp only [ok_pure]
        exact hfail _ c2 e2

theorem binarySort_spec (h : Host σ ε) (lt : ε → ε → Bool) (P S T R : List ε) (lo n ok : Int) (s : St σ ε)
    (hm : s.mem = P ++ ((S ++ T) ++ R)) (hlo : lo = P.length) (hok : ok = S.length) (h0 : 1 ≤ ok)
    (hn : n = ok + T.length) (hs : Good h lt → SortedBy lt S) :
    Ok (binarySort h lo n ok) s (fun r s' => ∃ W', Rearr h lt P (S ++ T) R s r s' W' ∧
        (r.isSome → Good h lt → SortedBy lt W')) := by
  unfold binarySort
  rw [ok_bind, ok_check]
  refine ⟨by simp only [decide_eq_true_eq]; omega, ?_⟩
  rw [if_neg (by omega)]
  exact binaryLoop_spec h lt P R lo n hlo _ ok S T s hm hok (by omega) hn (by omega) hs

theorem collapse_spec (h : Host σ ε) (lt : ε → ε → Bool) (nr : ∀ s, ¬ Raised h s) (O R : List ε) (hmax : O.length < 2 ^ 60) :
    ∀ (f : Nat) (s : St σ ε) (segs : List (List ε)), Inv h lt O segs R s → s.pending.length + 1 ≤ f →
      Ok (collapse h f) s (fun r s' => (r = none → Broken h O s') ∧ (r.isSome → s'.err = s.err ∧
        ∃ segs', Inv h lt O segs' R s')) := by
  intro f
  induction f with
  | zero => intro s segs _ hf; omega
  | succ f ih =>
    intro s segs inv hf
    have hlen : s.mem.length < 2 ^ 60 := by rw [inv.mem, inv.perm.length_eq]; exact hmax
    -- one merge and the rest of the loop
    have step : ∀ (third : Bool) (pending : List Run), pending.length + 1 ≤ f →
        Ok (mergeAt h third) s (Merge1 h lt segs R pending s) →
        Ok (do match ← mergeAt h third with
          | none => pure none
          | some _ => collapse h f) s (fun r s' => (r = none → Broken h O s') ∧ (r.isSome → s'.err = s.err ∧
        ∃ segs', Inv h lt O segs' R s')) := by
      intro third pending hpl hm
      rw [ok_bind]
      refine hm.mono ?_
      rintro r s1 ⟨p1, e1, segs1, m1, pm1, k1⟩
      have perm1 : (flat segs1 ++ R).Perm O := (List.Perm.append_right _ pm1).trans inv.perm
      match r, e1, k1 with
      | none, e1, _ =>
        show Ok (pure none) s1 _
        rw [ok_pure]
        exact ⟨fun _ => ⟨e1, by rw [m1]; exact perm1⟩, by simp⟩
      | some _, e1, k1 =>
        obtain ⟨k1, o1⟩ := k1 rfl
        have inv1 : Inv h lt O segs1 R s1 :=
          ⟨by rw [p1]; exact k1, m1, perm1, fun G => ((o1 G).append (SameOrder.refl R)).trans (inv.order G)⟩
        refine (ih s1 segs1 inv1 (by rw [p1]; exact hpl)).mono ?_
        rintro r s2 ⟨g1, g2⟩
        refine ⟨g1, fun hr => ?_⟩
        obtain ⟨e2, rest⟩ := g2 hr
        exact ⟨Eq.trans e2 e1, rest⟩
    unfold collapse
    rw [ok_bind, ok_get]
    cases ht : toMerge s.pending with
    | none =>
      show Ok (pure (some ())) s _
      rw [ok_pure]
      exact ⟨by simp, fun _ => ⟨rfl, segs, inv⟩⟩
    | some third =>
      simp only
      cases third with
      | false =>
        match hp : s.pending, ht with
        | b :: a :: rest, _ =>
          exact step false _ (by rw [hp] at hf; simpa using hf) (mergeAt_spec h lt nr R s a b rest segs hp inv.stk inv.mem hlen)
        | [], ht => cases ht
        | [_], ht => cases ht
      | true =>
        match hp : s.pending, ht with
        | c :: b :: a :: rest, _ =>
          exact step true _ (by rw [hp] at hf; simpa using hf) (mergeAt3_spec h lt nr R s a b c rest segs hp inv.stk inv.mem hlen)
        | [], ht => cases ht
        | [_], ht => cases ht
        | [_, _], ht =>
          simp only [toMerge] at ht
          split at ht <;> cases ht

theorem nextRun_spec (h : Host σ ε) (lt : ε → ε → Bool) (nr : ∀ s, ¬ Raised h s) (O R : List ε) (mr lo nrem : Int)
    (s : St σ ε) (segs : List (List ε)) (inv : Inv h lt O segs R s) (hlo : lo = (flat segs).length)
    (hnr : nrem = R.length) (hR : R ≠ []) (hmax : O.length < 2 ^ 60) :
    Ok (nextRun h mr lo nrem) s (fun r s' => (r = none → Broken h O s') ∧ ∀ k, r = some k → s'.err = s.err ∧
      ∃ segs' R', Inv h lt O segs' R' s' ∧ 1 ≤ k ∧ lo + k = (flat segs').length ∧ nrem - k = R'.length) := by
  have hRl : 0 < R.length := List.length_pos_iff.2 hR
  unfold nextRun
  rw [ok_bind]
  refine (countRun_spec h lt (flat segs) R [] lo nrem s (by rw [inv.mem]; simp) hlo hnr hR).mono ?_
  rintro r s1 ⟨R1, q1, q2⟩
  have hmem1 : s1.mem = flat segs ++ R1 := by rw [q1.mem]; simp
  match r, q1, q2 with
  | none, q1, _ =>
    simp only [ok_pure]
    refine ⟨fun _ => ⟨q1.ends, ?_⟩, by simp⟩
    rw [hmem1]
    exact (List.Perm.append_left _ q1.perm).trans inv.perm
  | some k, q1, q2 =>
    obtain ⟨k1, k2, k3⟩ := q2 k rfl
    have e1 : s1.err = s.err := q1.ends
    have inv1 : Inv h lt O segs R1 s1 :=
      ⟨by rw [q1.rest.pending]; exact inv.stk, hmem1, (List.Perm.append_left _ q1.perm).trans inv.perm,
        fun G => ((SameOrder.refl _).append (q1.order rfl G)).trans (inv.order G)⟩
    have hR1 := q1.perm.length_eq
    simp only
    -- the rest, once the run has its final length `n` and content
    have rest : ∀ (n : Int) (s2 : St σ ε) (R2 : List ε), 1 ≤ n → n ≤ R2.length → R2.length = R.length →
        Inv h lt O segs R2 s2 → s2.err = s.err → (Good h lt → SortedBy lt (R2.take n.toNat)) →
        Ok (do
          modify fun s => { s with pending := { base := lo, len := n, power := none } :: s.pending }
          match ← collapse h ((← get).pending.length + 1) with
          | none => pure none
          | some _ => pure (some n) : M σ ε (Option Int)) s2 (fun r s' => (r = none → Broken h O s') ∧ ∀ k, r = some k → s'.err = s.err ∧
          ∃ segs' R', Inv h lt O segs' R' s' ∧ 1 ≤ k ∧ lo + k = (flat segs').length ∧ nrem - k = R'.length) := by
      intro n s2 R2 hn1 hn2 hR2 inv2 he2 hs2
      rw [ok_bind, ok_modify, ok_bind, ok_get, ok_bind]
      have htl : (R2.take n.toNat).length = n.toNat := by rw [List.length_take]; omega
      have inv3 : Inv h lt O (R2.take n.toNat :: segs) (R2.drop n.toNat)
          { s2 with pending := { base := lo, len := n, power := none } :: s2.pending } := by
        refine ⟨⟨hlo, ?_, ?_, hs2, inv2.stk⟩, ?_, ?_, ?_⟩
        · simp only [htl]; omega
        · exact List.length_pos_iff.1 (by omega)
        · simp only [flat]
          rw [List.append_assoc, List.take_append_drop]
          exact inv2.mem
        · simp only [flat]
          rw [List.append_assoc, List.take_append_drop]
          exact inv2.perm
        · intro G
          simp only [flat]
          rw [List.append_assoc, List.take_append_drop]
          exact inv2.order G
      refine (collapse_spec h lt nr O (R2.drop n.toNat) hmax _ _ _ inv3 (Nat.le_refl _)).mono ?_
      rintro r s4 ⟨f1, f2⟩
      match r, f1, f2 with
      | none, f1, _ =>
        show Ok (pure none) s4 _
        rw [ok_pure]
        exact ⟨fun _ => f1 rfl, by simp⟩
      | some _, _, f2 =>
        obtain ⟨e4, segs4, inv4⟩ := f2 rfl
        show Ok (pure (some n)) s4 _
        rw [ok_pure]
        refine ⟨by simp, ?_⟩
        rintro k' hk'
        cases hk'
        have hl4 := inv4.perm.length_eq
        have hl2 := inv2.perm.length_eq
        simp only [List.length_append, List.length_drop] at hl4 hl2
        refine ⟨Eq.trans e4 he2, segs4, _, inv4, hn1, by omega, ?_⟩
        rw [List.length_drop]; omega
    by_cases hc : k < mr
    · simp only [if_pos hc]
      rw [ok_bind]
      generalize hforce : (if nrem ≤ mr then nrem else mr) = force
      have hf1 : k ≤ force ∧ force ≤ nrem := by
        rw [← hforce]; split <;> omega
      -- split R1 = S ++ T ++ rest
      have hsplit : R1 = (R1.take k.toNat ++ (R1.take force.toNat).drop k.toNat) ++ R1.drop force.toNat := by
        have : R1.take k.toNat = (R1.take force.toNat).take k.toNat := by
          rw [List.take_take, Nat.min_eq_left (by omega)]
        rw [this, List.take_append_drop, List.take_append_drop]
      have hSl : (R1.take k.toNat).length = k.toNat := by rw [List.length_take]; omega
      have hTl : ((R1.take force.toNat).drop k.toNat).length = force.toNat - k.toNat := by
        rw [List.length_drop, List.length_take]; omega
      refine (binarySort_spec h lt (flat segs) (R1.take k.toNat) ((R1.take force.toNat).drop k.toNat) (R1.drop force.toNat)
        lo force k s1 (by rw [hmem1, ← hsplit]) hlo (by omega) k1 (by omega) k3).mono ?_
      rintro r s2 ⟨W, w1, w2⟩
      have hWl := w1.perm.length_eq
      rw [List.length_append, hSl, hTl] at hWl
      have perm2 : (W ++ R1.drop force.toNat).Perm R1 := by
        refine (List.Perm.append_right _ w1.perm).trans ?_
        rw [← hsplit]
      match r, w1, w2 with
      | none, w1, _ =>
        show Ok (pure none) s2 _
        rw [ok_pure]
        refine ⟨fun _ => ⟨w1.ends, ?_⟩, by simp⟩
        rw [w1.mem]
        exact (List.Perm.append_left _ perm2).trans inv1.perm
      | some _, w1, w2 =>
        refine rest force s2 (W ++ R1.drop force.toNat) (by omega) ?_ ?_ ⟨?_, w1.mem, ?_, ?_⟩ ?_ ?_
        · rw [perm2.length_eq]; omega
        · rw [perm2.length_eq]; omega
        · rw [w1.rest.pending]; exact inv1.stk
        · exact (List.Perm.append_left _ perm2).trans inv1.perm
        · intro G
          refine SameOrder.trans ?_ (inv1.order G)
          refine (SameOrder.refl _).append ?_
          have := (w1.order rfl G).append (SameOrder.refl (lt := lt) (R1.drop force.toNat))
          rwa [← hsplit] at this
        · exact Eq.trans w1.ends e1
        · intro G
          rw [List.take_left' (by omega)]
          exact w2 rfl G
    · simp only [if_neg hc]
      rw [ok_bind, ok_pure]
      exact rest k s1 R1 k1 (by omega) hR1 inv1 e1 k3

theorem runLoop_spec (h : Host σ ε) (lt : ε → ε → Bool) (nr : ∀ s, ¬ Raised h s) (O : List ε) (mr : Int)
    (hmax : O.length < 2 ^ 60) :
    ∀ (f : Nat) (lo nrem : Int) (s : St σ ε) (segs : List (List ε)) (R : List ε), Inv h lt O segs R s →
      lo = (flat segs).length → nrem = R.length → R ≠ [] → R.length + 1 ≤ f →
      Ok (runLoop h mr f lo nrem) s (fun r s' => (r = none → Broken h O s') ∧ (r.isSome → s'.err = s.err ∧
        ∃ segs', Inv h lt O segs' [] s')) := by
  intro f
  induction f with
  | zero => intro lo nrem s segs R _ _ _ _ hf; omega
  | succ f ih =>
    intro lo nrem s segs R inv hlo hnr hR hf
    unfold runLoop
    rw [ok_bind]
    refine (nextRun_spec h lt nr O R mr lo nrem s segs inv hlo hnr hR hmax).mono ?_
    rintro r s1 ⟨f1, f2⟩
    match r, f1, f2 with
    | none, f1, _ =>
      show Ok (pure none) s1 _
      rw [ok_pure]
      exact ⟨fun _ => f1 rfl, by simp⟩
    | some k, _, f2 =>
      obtain ⟨e1, segs1, R1, inv1, k1, k2, k3⟩ := f2 k rfl
      simp only
      split
      · rw [ok_pure]
        have : R1 = [] := List.eq_nil_of_length_eq_zero (by omega)
        subst this
        exact ⟨by simp, fun _ => ⟨e1, segs1, inv1⟩⟩
      · rename_i h0
        refine (ih _ _ s1 segs1 R1 inv1 k2 k3 (List.length_pos_iff.1 (by omega)) (by omega)).mono ?_
        rintro r s2 ⟨g1, g2⟩
        refine ⟨g1, fun hr => ?_⟩
        obtain ⟨e2, rest⟩ := g2 hr
        exact ⟨Eq.trans e2 e1, rest⟩

theorem forceCollapse_spec (h : Host σ ε) (lt : ε → ε → Bool) (nr : ∀ s, ¬ Raised h s) (O : List ε) (hmax : O.length < 2 ^ 60) :
    ∀ (f : Nat) (s : St σ ε) (segs : List (List ε)), Inv h lt O segs [] s → s.pending.length + 1 ≤ f →
      Ok (forceCollapse h f) s (fun r s' => (r = none → Broken h O s') ∧ (r.isSome → s'.err = s.err ∧
        ∃ segs', Inv h lt O segs' [] s' ∧ s'.pending.length ≤ 1)) := by
  intro f
  induction f with
  | zero => intro s segs _ hf; omega
  | succ f ih =>
    intro s segs inv hf
    have hlen : s.mem.length < 2 ^ 60 := by rw [inv.mem, inv.perm.length_eq]; exact hmax
    -- one merge and the rest of the loop
    have step : ∀ (third : Bool) (pending : List Run), pending.length + 1 ≤ f →
        Ok (mergeAt h third) s (Merge1 h lt segs [] pending s) →
        Ok (do match ← mergeAt h third with
          | none => pure none
          | some _ => forceCollapse h f) s (fun r s' => (r = none → Broken h O s') ∧ (r.isSome → s'.err = s.err ∧
        ∃ segs', Inv h lt O segs' [] s' ∧ s'.pending.length ≤ 1)) := by
      intro third pending hpl hm
      rw [ok_bind]
      refine hm.mono ?_
      rintro r s1 ⟨p1, e1, segs1, m1, pm1, k1⟩
      have perm1 : (flat segs1 ++ []).Perm O := (List.Perm.append_right _ pm1).trans inv.perm
      match r, e1, k1 with
      | none, e1, _ =>
        show Ok (pure none) s1 _
        rw [ok_pure]
        exact ⟨fun _ => ⟨e1, by rw [m1]; exact perm1⟩, by simp⟩
      | some _, e1, k1 =>
        obtain ⟨k1, o1⟩ := k1 rfl
        have inv1 : Inv h lt O segs1 [] s1 :=
          ⟨by rw [p1]; exact k1, m1, perm1, fun G => ((o1 G).append (SameOrder.refl [])).trans (inv.order G)⟩
        refine (ih s1 segs1 inv1 (by rw [p1]; exact hpl)).mono ?_
        rintro r s2 ⟨g1, g2⟩
        refine ⟨g1, fun hr => ?_⟩
        obtain ⟨e2, rest⟩ := g2 hr
        exact ⟨Eq.trans e2 e1, rest⟩
    unfold forceCollapse
    rw [ok_bind, ok_get]
    match hp : s.pending with
    | [] =>
      show Ok (pure (some ())) s _
      rw [ok_pure]
      exact ⟨by simp, fun _ => ⟨rfl, segs, inv, by simp [hp]⟩⟩
    | [r] =>
      show Ok (pure (some ())) s _
      rw [ok_pure]
      exact ⟨by simp, fun _ => ⟨rfl, segs, inv, by simp [hp]⟩⟩
    | [b, a] =>
      exact step false _ (by rw [hp] at hf; simpa using hf) (mergeAt_spec h lt nr [] s a b [] segs hp inv.stk inv.mem hlen)
    | c :: b :: a :: rest =>
      rw [hp] at hf
      simp only
      by_cases hc : a.len < c.len
      · rw [decide_eq_true hc]
        exact step true _ (by simp at hf ⊢; omega) (mergeAt3_spec h lt nr [] s a b c rest segs hp inv.stk inv.mem hlen)
      · rw [decide_eq_false hc]
        exact step false _ (by simp at hf ⊢; omega) (mergeAt_spec h lt nr [] s b c (a :: rest) segs hp inv.stk inv.mem hlen)

/-- The sort: a stable sorted permutation, without a fault. -/
theorem sortM_spec (h : Host σ ε) (lt : ε → ε → Bool) (nr : ∀ s, ¬ Raised h s) (G : Good h lt) (O : List ε) (s : St σ ε)
    (hs : s.mem = O) (hp : s.pending = []) (hmax : O.length < 2 ^ 60) :
    Ok (sortM h O.length) s (fun _ s' => StableSort lt O s'.mem) := by
  unfold sortM
  split
  · rename_i h2
    rw [ok_pure, hs]
    refine ⟨List.Perm.refl _, ?_, SameOrder.refl _⟩
    match O, h2 with
    | [], _ => exact sortedBy_nil
    | [x], _ => exact sortedBy_singleton x
    | _ :: _ :: _, h2 => simp at h2; omega
  · rename_i h2
    split
    · rename_i h32
      rw [ok_bind]
      refine (countRun_spec h lt [] O [] 0 O.length s (by simp [hs]) rfl rfl (List.length_pos_iff.1 (by omega))).mono ?_
      rintro r s1 ⟨W, w1, w2⟩
      match r, w1, w2 with
      | none, w1, _ => exact absurd w1.ends (nr _)
      | some k, w1, w2 =>
        obtain ⟨k1, k2, k3⟩ := w2 k rfl
        have hWl := w1.perm.length_eq
        simp only
        have hm : s1.mem = [] ++ ((W.take k.toNat ++ W.drop k.toNat) ++ []) := by
          rw [List.take_append_drop]; exact w1.mem
        refine (binarySort_spec h lt [] (W.take k.toNat) (W.drop k.toNat) [] 0 O.length k s1 hm rfl (by
          rw [List.length_take]; omega) k1 (by rw [List.length_drop]; omega) k3).mono ?_
        rintro r s2 ⟨V, v1, v2⟩
        match r, v1, v2 with
        | none, v1, _ => exact absurd v1.ends (nr _)
        | some _, v1, v2 =>
          have hv : s2.mem = V := by rw [v1.mem]; simp
          have p1 := v1.perm
          have o1 := v1.order rfl G
          rw [List.take_append_drop] at p1 o1
          rw [hv]
          exact ⟨p1.trans w1.perm, v2 rfl G, o1.trans (w1.order rfl G)⟩
    · rename_i h32
      simp only [Int.toNat_natCast]
      rw [ok_bind]
      have inv0 : Inv h lt O [] O s := ⟨by rw [hp]; trivial, by rw [hs]; rfl, List.Perm.refl _, fun _ => SameOrder.refl _⟩
      refine (runLoop_spec h lt nr O (minrun O.length) hmax _ _ _ s [] O inv0 rfl rfl
        (List.length_pos_iff.1 (by omega)) (Nat.le_refl _)).mono ?_
      rintro r s1 ⟨f1, f2⟩
      match r, f1, f2 with
      | none, f1, _ => exact absurd (f1 rfl).1 (nr _)
      | some _, _, f2 =>
        obtain ⟨e1, segs1, inv1⟩ := f2 rfl
        simp only
        rw [ok_bind, ok_get, ok_bind]
        refine (forceCollapse_spec h lt nr O hmax _ s1 segs1 inv1 (Nat.le_refl _)).mono ?_
        rintro r s2 ⟨g1, g2⟩
        match r, g1, g2 with
        | none, g1, _ => exact absurd (g1 rfl).1 (nr _)
        | some _, _, g2 =>
          obtain ⟨e2, segs2, inv2, hle⟩ := g2 rfl
          simp only
          rw [ok_bind, ok_get]
          have hk := inv2.stk
          have hl := inv2.perm.length_eq
          match hp2 : s2.pending, segs2, hk, hl with
          | [], [], _, hl => simp [flat] at hl; omega
          | [r], [g], ⟨r1, r2, r3, r4, _⟩, hl =>
            simp only
            rw [ok_pure]
            have hm : s2.mem = g := by rw [inv2.mem]; simp [flat]
            have hpm := inv2.perm
            simp only [flat, List.nil_append, List.append_nil] at hpm
            rw [hm]
            have ho := inv2.order G
            simp only [flat, List.nil_append, List.append_nil] at ho
            exact ⟨hpm, r4 G, ho⟩
          | _ :: _ :: _, _, _, _ => rw [hp2] at hle; simp at hle

theorem pureHost_noRaise (lt : ε → ε → Bool) (s : St Unit ε) : ¬ Raised (pureHost lt) s := by
  rintro ⟨e, _, ⟨s0, x, y, hx⟩ | ⟨_, s0, n, hx⟩⟩
  · simp [pureHost] at hx
  · simp [pureHost] at hx

theorem pureHost_good (lt : ε → ε → Bool) (sw : StrictWeak lt) : Good (pureHost lt) lt := ⟨sw, fun _ _ _ => rfl⟩

theorem timsort_spec (lt : ε → ε → Bool) (sw : StrictWeak lt) (l : List ε) (hmax : l.length < 2 ^ 60) :
    ∃ l' b, timsort lt l = .ok (l', b) ∧ StableSort lt l l' := by
  obtain ⟨r, s', e, q⟩ := sortM_spec (pureHost lt) lt (pureHost_noRaise lt) (pureHost_good lt sw) l
    { env := (), mem := l, minGallop := 7, alloced := 0, pending := [], err := none } rfl rfl hmax
  refine ⟨s'.mem, decide (s'.alloced ≠ 0), ?_, q⟩
  unfold timsort
  rw [e]

end Verif.Gfx
