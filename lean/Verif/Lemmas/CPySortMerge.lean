import Verif.Lemmas.CPySortHi

/-!
# `merge_at` and the stack of pending runs
-/

namespace Verif.CPySort

open Verif.Spec

variable {σ ε α : Type}

theorem Ends.weaken {h : Host σ ε} {s0 s s' : St σ ε} {r : Option α} (e : Ends h s r s') (he : s.err = s0.err) :
    Ends h s0 r s' := by
  cases r with
  | none => exact e
  | some _ => exact Eq.trans e he

theorem mergeRuns_spec (h : Host σ ε) (lt : ε → ε → Bool) (P A B R : List ε) (ssa na ssb nb : Int) (s : St σ ε)
    (hmem : s.mem = P ++ (A ++ (B ++ R))) (hssa : ssa = P.length) (hna : na = A.length)
    (hssb : ssb = (P.length + A.length : Nat)) (hnb : nb = B.length) (hA : A ≠ []) (hB : B ≠ [])
    (hmax : A.length + B.length < 2 ^ 60)
    (sa : Good h lt → SortedBy lt A) (sb : Good h lt → SortedBy lt B) :
    Ok (mergeRuns h ssa na ssb nb) s (fun r s' => ∃ W, Merged h lt P (A ++ B) R s r s' W) := by
  have hAl : 0 < A.length := List.length_pos_iff.2 hA
  have hBl : 0 < B.length := List.length_pos_iff.2 hB
  obtain ⟨b, B', hBe⟩ : ∃ b B', B = b :: B' := List.exists_cons_of_ne_nil hB
  unfold mergeRuns
  rw [ok_bind, ok_rdm]
  have hg := mid_get (P := P ++ A) (x := b) (R := B' ++ R) (i := ssb) (by rw [hssb, List.length_append])
  refine ⟨hg.1, b, by rw [hmem, hBe]; simpa using hg.2, ?_⟩
  rw [ok_bind, ok_get, ok_bind]
  refine (gallopRight_spec h lt b _ P A (B ++ R) ssa na 0 hmem hssa hna (by omega) (by omega) (by omega) sa _).mono ?_
  rintro r s1 ⟨c, e, g⟩
  match r, g, e with
  | none, _, e =>
    simp only [ok_pure]
    exact ⟨A ++ B, c.pending, by rw [c.mem, hmem]; simp, List.Perm.refl _, e, by simp, by simp⟩
  | some k, g, e =>
    obtain ⟨X, Y, rfl, hk, hXY⟩ := g k rfl
    -- everything in B is at least b, hence not before anything in X
    have hBX : Good h lt → ∀ x ∈ X, ∀ y ∈ B, lt y x = false := by
      intro G x hx y hy
      have h1 : lt b x = false := by simpa using (hXY G).1 x hx
      have h2 := sb G
      rw [hBe, sortedBy_cons] at h2
      rw [hBe] at hy
      rcases List.mem_cons.1 hy with rfl | hy
      · exact h1
      · exact G.sw.negTrans y b x (h2.1 y hy) h1
    have e' : s1.err = s.err := e
    simp only [List.length_append] at hAl hssb hna hmax
    simp only
    split
    · rename_i h0
      rw [ok_pure]
      have hY : Y = [] := List.eq_nil_of_length_eq_zero (by omega)
      subst hY
      refine ⟨X ++ [] ++ B, c.pending, by rw [c.mem, hmem]; simp, List.Perm.refl _, e', fun _ _ => SameOrder.refl _, ?_⟩
      intro _ G
      rw [sortedBy_append]
      refine ⟨sa G, sb G, ?_⟩
      intro x hx
      exact hBX G x (by simpa using hx)
    · rename_i h0
      obtain ⟨Y', y, hYe⟩ := snoc_of_pos (l := Y) (by omega)
      rw [ok_bind, ok_rdm]
      have hYl : Y.length = Y'.length + 1 := by rw [hYe]; simp
      have hg := mid_get (P := P ++ X ++ Y') (x := y) (R := B ++ R) (i := ssa + k + (na - k - 1)) (by
        simp only [List.length_append]; omega)
      refine ⟨hg.1, y, by rw [c.mem, hmem, hYe]; simpa using hg.2, ?_⟩
      rw [ok_bind, ok_get, ok_bind]
      refine (gallopLeft_spec h lt y _ (P ++ (X ++ Y)) B R ssb nb (nb - 1) (by rw [c.mem, hmem]; simp) ?_ hnb (by omega)
        (by omega) (by omega) sb _).mono ?_
      · rw [hssb]; simp only [List.length_append]
      rintro r s2 ⟨c2, e2, g2⟩
      match r, g2, e2 with
      | none, _, e2 =>
        simp only [ok_pure]
        refine ⟨X ++ Y ++ B, c2.pending.trans c.pending, by rw [c2.mem, c.mem, hmem]; simp, List.Perm.refl _, e2, by simp, by simp⟩
      | some k2, g2, e2 =>
        obtain ⟨X2, Y2, hBe2, hk2, hXY2⟩ := g2 k2 rfl
        have e2' : s2.err = s.err := Eq.trans e2 e'
        have hsA := fun G => sortedBy_append.1 (sa G)
        have hsB := fun G => sortedBy_append.1 (hBe2 ▸ sb G)
        -- nothing in Y2 is before anything in Y
        have hY2 : Good h lt → ∀ u ∈ Y, ∀ w ∈ Y2, lt w u = false := by
          intro G u hu w hw
          have h1 : lt w y = false := by simpa using (hXY2 G).2 w hw
          have h2 := (hsA G).2.1
          rw [hYe] at h2 hu
          rcases List.mem_append.1 hu with hu | hu
          · exact G.sw.negTrans w y u h1 ((sortedBy_append.1 h2).2.2 u hu y (by simp))
          · rw [List.mem_singleton.1 hu]; exact h1
        simp only
        split
        · rename_i h2
          rw [ok_pure]
          have hX2 : X2 = [] := List.eq_nil_of_length_eq_zero (by omega)
          refine ⟨X ++ Y ++ B, c2.pending.trans c.pending, by rw [c2.mem, c.mem, hmem]; simp, List.Perm.refl _, e2',
            fun _ _ => SameOrder.refl _, ?_⟩
          intro _ G
          rw [sortedBy_append]
          refine ⟨sa G, sb G, ?_⟩
          intro u hu w hw
          rcases List.mem_append.1 hu with hu | hu
          · exact hBX G u hu w hw
          · exact hY2 G u hu w (by rw [hBe2, hX2] at hw; simpa using hw)
        · rename_i h2
          have hX2 : X2 ≠ [] := List.length_pos_iff.1 (by omega)
          have hYne : Y ≠ [] := List.length_pos_iff.1 (by omega)
          have hmem2 : s2.mem = (P ++ X) ++ (Y ++ (X2 ++ (Y2 ++ R))) := by
            rw [c2.mem, c.mem, hmem, hBe2]; simp
          have hlast : Good h lt → ∀ x, Y.getLast? = some x → ∀ b ∈ X2, lt b x = true := by
            intro G x hx w hw
            rw [hYe] at hx
            simp at hx
            subst hx
            simpa using (hXY2 G).1 w hw
          have hfirst : Good h lt → ∀ w, X2.head? = some w → ∀ a ∈ Y, lt w a = true := by
            intro G w hw a ha
            have : B.head? = some w := by rw [hBe2, List.head?_append, hw]; rfl
            rw [hBe] at this
            simp at this
            subst this
            simpa using (hXY G).2 a ha
          have hlen : B.length = X2.length + Y2.length := by rw [hBe2]; simp
          have fin : ∀ r s3, (∃ W, Merged h lt (P ++ X) (Y ++ X2) (Y2 ++ R) s2 r s3 W) →
              ∃ W, Merged h lt P (X ++ Y ++ B) R s (r : Option Unit) s3 W := by
            rintro r s3 ⟨W, mg⟩
            refine ⟨X ++ (W ++ Y2), mg.pending.trans (c2.pending.trans c.pending), by rw [mg.mem]; simp, ?_,
              mg.ends.weaken e2', ?_, ?_⟩
            · rw [hBe2, List.append_assoc]
              refine List.Perm.append_left _ ?_
              rw [← List.append_assoc]
              exact List.Perm.append_right _ mg.perm
            · intro hr G
              rw [hBe2, List.append_assoc]
              refine (SameOrder.refl X).append ?_
              rw [← List.append_assoc]
              exact (mg.order hr G).append (SameOrder.refl Y2)
            · intro hr G
              have hW : ∀ w ∈ W, w ∈ Y ∨ w ∈ X2 := fun w hw => List.mem_append.1 (mg.perm.mem_iff.1 hw)
              rw [sortedBy_append, sortedBy_append]
              refine ⟨(hsA G).1, ⟨mg.sorted hr G, (hsB G).2.1, ?_⟩, ?_⟩
              · intro u hu w hw
                rcases hW u hu with hu | hu
                · exact hY2 G u hu w hw
                · exact (hsB G).2.2 u hu w hw
              · intro u hu w hw
                have : w ∈ Y ∨ w ∈ B := by
                  rcases List.mem_append.1 hw with hw | hw
                  · rcases hW w hw with hw | hw
                    · exact Or.inl hw
                    · exact Or.inr (by rw [hBe2]; exact List.mem_append_left _ hw)
                  · exact Or.inr (by rw [hBe2]; exact List.mem_append_right _ hw)
                rcases this with hw | hw
                · exact (hsA G).2.2 u hu w hw
                · exact hBX G u hu w hw
          split
          · refine (mergeLo_spec h lt (P ++ X) Y X2 (Y2 ++ R) _ _ _ _ s2 hmem2 (by simp only [List.length_append]; omega)
              (by omega) (by simp only [List.length_append]; omega) hk2 hYne hX2 (by omega) (by omega)
              (fun G => (hsA G).2.1) (fun G => (hsB G).1) hlast hfirst).mono fin
          · refine (mergeHi_spec h lt (P ++ X) Y X2 (Y2 ++ R) _ _ _ _ s2 hmem2 (by simp only [List.length_append]; omega)
              (by omega) (by simp only [List.length_append]; omega) hk2 hYne hX2 (by omega) (by omega)
              (fun G => (hsA G).2.1) (fun G => (hsB G).1) hlast hfirst).mono fin

/-! ## The stack -/

/-- The runs, topmost first, laid out in the slice. -/
def flat : List (List ε) → List ε
  | [] => []
  | g :: gs => flat gs ++ g

/-- The stack describes consecutive non-empty runs (topmost first), sorted under a consistent comparison. -/
def Stk (h : Host σ ε) (lt : ε → ε → Bool) : List Run → List (List ε) → Prop
  | [], [] => True
  | r :: rs, g :: gs =>
    r.base = (flat gs).length ∧ r.len = g.length ∧ g ≠ [] ∧ (Good h lt → SortedBy lt g) ∧ Stk h lt rs gs
  | _, _ => False

/-- After a merge: the slice is still a permutation; on success the stack is still in order. -/
def Merge1 (h : Host σ ε) (lt : ε → ε → Bool) (segs : List (List ε)) (R : List ε) (pending : List Run)
    (s : St σ ε) (r : Option Unit) (s' : St σ ε) : Prop :=
  s'.pending = pending ∧ Ends h s r s' ∧ ∃ segs', s'.mem = flat segs' ++ R ∧ (flat segs').Perm (flat segs) ∧
    (r.isSome → Stk h lt pending segs' ∧ (Good h lt → SameOrder lt (flat segs') (flat segs)))

theorem mergeAt_spec (h : Host σ ε) (lt : ε → ε → Bool) (R : List ε) (s : St σ ε) (a b : Run) (rest : List Run)
    (segs : List (List ε)) (hp : s.pending = b :: a :: rest) (hs : Stk h lt s.pending segs)
    (hmem : s.mem = flat segs ++ R) (hmax : s.mem.length < 2 ^ 60) :
    Ok (mergeAt h false) s (Merge1 h lt segs R ({ a with len := a.len + b.len } :: rest) s) := by
  rw [hp] at hs
  match segs, hs, hmem with
  | gb :: ga :: gs, hs, hmem =>
    obtain ⟨b1, b2, b3, b4, a1, a2, a3, a4, hs⟩ := hs
    have hla : 0 < ga.length := List.length_pos_iff.2 a3
    have hlb : 0 < gb.length := List.length_pos_iff.2 b3
    simp only [flat, List.length_append] at hmem a1 b1
    unfold mergeAt
    rw [ok_bind, ok_get, hp]
    simp only
    rw [ok_bind, ok_check]
    refine ⟨by simp only [decide_eq_true_eq]; omega, ?_⟩
    rw [ok_bind, ok_modify]
    have hl : s.mem.length = (flat gs).length + ga.length + gb.length + R.length := by rw [hmem]; simp only [List.length_append]
    refine (mergeRuns_spec h lt (flat gs) ga gb R _ _ _ _ _ (by simp only; rw [hmem]; simp) a1 a2 b1 b2 a3 b3 (by omega)
      a4 b4).mono ?_
    rintro r s' ⟨W, mg⟩
    refine ⟨mg.pending, ?_, W :: gs, ?_, ?_, ?_⟩
    · cases r with
      | none => exact mg.ends
      | some _ => exact mg.ends
    · rw [mg.mem]; simp [flat]
    · simp only [flat, List.append_assoc]
      exact List.Perm.append_left _ mg.perm
    · intro hr
      have hWl := mg.perm.length_eq
      refine ⟨⟨a1, ?_, ?_, fun G => mg.sorted hr G, hs⟩, fun G => ?_⟩
      · simp only [hWl, List.length_append]; omega
      · refine List.length_pos_iff.1 ?_
        rw [hWl, List.length_append]; omega
      · simp only [flat, List.append_assoc]
        exact (SameOrder.refl _).append (mg.order hr G)

theorem mergeAt3_spec (h : Host σ ε) (lt : ε → ε → Bool) (R : List ε) (s : St σ ε) (a b c : Run) (rest : List Run)
    (segs : List (List ε)) (hp : s.pending = c :: b :: a :: rest) (hs : Stk h lt s.pending segs)
    (hmem : s.mem = flat segs ++ R) (hmax : s.mem.length < 2 ^ 60) :
    Ok (mergeAt h true) s (Merge1 h lt segs R (c :: { a with len := a.len + b.len } :: rest) s) := by
  rw [hp] at hs
  match segs, hs, hmem with
  | gc :: gb :: ga :: gs, hs, hmem =>
    obtain ⟨c1, c2, c3, c4, b1, b2, b3, b4, a1, a2, a3, a4, hs⟩ := hs
    have hla : 0 < ga.length := List.length_pos_iff.2 a3
    have hlb : 0 < gb.length := List.length_pos_iff.2 b3
    simp only [flat, List.length_append] at hmem a1 b1 c1
    unfold mergeAt
    rw [ok_bind, ok_get, hp]
    simp only
    rw [ok_bind, ok_check]
    refine ⟨by simp only [decide_eq_true_eq]; omega, ?_⟩
    rw [ok_bind, ok_modify]
    have hl : s.mem.length = (flat gs).length + ga.length + gb.length + gc.length + R.length := by
      rw [hmem]; simp only [List.length_append]
    refine (mergeRuns_spec h lt (flat gs) ga gb (gc ++ R) _ _ _ _ _ (by simp only; rw [hmem]; simp) a1 a2 b1 b2 a3 b3
      (by omega) a4 b4).mono ?_
    rintro r s' ⟨W, mg⟩
    refine ⟨mg.pending, ?_, gc :: W :: gs, ?_, ?_, ?_⟩
    · cases r with
      | none => exact mg.ends
      | some _ => exact mg.ends
    · rw [mg.mem]; simp [flat]
    · simp only [flat]
      refine List.Perm.append_right _ ?_
      rw [List.append_assoc]
      exact List.Perm.append_left _ mg.perm
    · intro hr
      have hWl := mg.perm.length_eq
      refine ⟨⟨?_, c2, c3, c4, a1, ?_, ?_, fun G => mg.sorted hr G, hs⟩, fun G => ?_⟩
      · simp only [flat, List.length_append, hWl, c1]; omega
      · simp only [hWl, List.length_append]; omega
      · refine List.length_pos_iff.1 ?_
        rw [hWl, List.length_append]; omega
      · simp only [flat]
        refine SameOrder.append ?_ (SameOrder.refl _)
        rw [List.append_assoc]
        exact (SameOrder.refl _).append (mg.order hr G)

end Verif.CPySort
