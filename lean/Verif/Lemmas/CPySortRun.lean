import Verif.Lemmas.CPySortGallop

/-!
# `reverse_slice`, `count_run`, `binarysort`
-/

namespace Verif.CPySort

open Verif.Spec

variable {σ ε α : Type}

/-- Only the slice, the oracle state and the error indicator may differ. -/
structure Rest (s s' : St σ ε) : Prop where
  minGallop : s'.minGallop = s.minGallop
  alloced : s'.alloced = s.alloced
  pending : s'.pending = s.pending

theorem Rest.refl (s : St σ ε) : Rest s s := ⟨rfl, rfl, rfl⟩

theorem Rest.trans {a b c : St σ ε} (h : Rest a b) (h' : Rest b c) : Rest a c :=
  ⟨h'.minGallop.trans h.minGallop, h'.alloced.trans h.alloced, h'.pending.trans h.pending⟩

theorem Calm.rest {a b : St σ ε} (h : Calm a b) : Rest a b := ⟨h.minGallop, h.alloced, h.pending⟩

/-- The call rearranged the segment `W` between `P` and `R` to `W'`; if it succeeded under a consistent
comparison, equivalent elements kept their order. -/
structure Rearr (h : Host σ ε) (lt : ε → ε → Bool) (P W R : List ε) (s : St σ ε) (r : Option α) (s' : St σ ε)
    (W' : List ε) : Prop where
  rest : Rest s s'
  mem : s'.mem = P ++ (W' ++ R)
  perm : W'.Perm W
  ends : Ends h s r s'
  order : r.isSome → Good h lt → SameOrder lt W' W

theorem mid_get {P : List ε} {x : ε} {R : List ε} {i : Int} (hi : i = P.length) :
    0 ≤ i ∧ (P ++ x :: R)[i.toNat]? = some x := by
  subst hi
  simp

theorem mid_set {P : List ε} {x y : ε} {R : List ε} {i : Int} (hi : i = P.length) :
    (0 ≤ i ∧ i.toNat < (P ++ x :: R).length) ∧ (P ++ x :: R).set i.toNat y = P ++ y :: R := by
  subst hi
  refine ⟨⟨by omega, by simp⟩, ?_⟩
  simp

theorem reverseLoop_spec : ∀ (f : Nat) (P W R : List ε) (lo hi : Int) (s : St σ ε), s.mem = P ++ (W ++ R) →
    lo = P.length → hi = P.length + W.length - 1 → W.length + 1 ≤ f →
    Ok (reverseLoop f lo hi) s (fun _ s' => s' = { s with mem := P ++ (W.reverse ++ R) }) := by
  intro f
  induction f with
  | zero => intro P W R lo hi s _ _ _ hf; omega
  | succ f ih =>
    intro P W R lo hi s hm hlo hhi hf
    unfold reverseLoop
    split
    · rename_i hlt
      match W, hm, hhi, hf with
      | [], _, _, _ => simp at *; omega
      | x :: V', hm, hhi, hf =>
        obtain ⟨V, y, rfl⟩ : ∃ V y, V' = V ++ [y] := by
          refine ⟨V'.dropLast, V'.getLast ?_, (List.dropLast_concat_getLast _).symm⟩
          rintro rfl
          simp at hhi
          omega
        have e1 : s.mem = P ++ x :: (V ++ y :: R) := by rw [hm]; simp
        have e2 : s.mem = (P ++ x :: V) ++ y :: R := by rw [hm]; simp
        have hl : hi = (P ++ x :: V).length := by rw [hhi]; simp; omega
        simp only [ok_bind, ok_rdm]
        refine ⟨by omega, x, by rw [e1]; exact (mid_get hlo).2, by omega, y, by rw [e2]; exact (mid_get hl).2, ?_⟩
        simp only [ok_wr]
        have w1 := mid_set (P := P) (x := x) (y := y) (R := V ++ y :: R) hlo
        refine ⟨by rw [e1]; exact w1.1, ?_⟩
        have e3 : s.mem.set lo.toNat y = (P ++ y :: V) ++ y :: R := by rw [e1, w1.2]; simp
        have hl' : hi = (P ++ y :: V).length := by rw [hhi]; simp; omega
        have w2 := mid_set (P := P ++ y :: V) (x := y) (y := x) (R := R) hl'
        refine ⟨by rw [e3]; exact w2.1, ?_⟩
        refine (ih (P ++ [y]) V (x :: R) (lo + 1) (hi - 1) _ ?_ ?_ ?_ ?_).mono ?_
        · show (s.mem.set lo.toNat y).set hi.toNat x = _
          rw [e3, w2.2]; simp
        · simp; omega
        · simp at hhi ⊢; omega
        · simp at hf; omega
        · rintro _ s' rfl
          simp
    · rename_i hlt
      rw [ok_pure]
      have : W.reverse = W := by
        match W, hhi with
        | [], _ => rfl
        | [_], _ => rfl
        | _ :: _ :: _, hhi => simp at hhi; omega
      rw [this, ← hm]

theorem reverseSlice_spec (P W R : List ε) (lo n : Int) (s : St σ ε) (hm : s.mem = P ++ (W ++ R))
    (hlo : lo = P.length) (hn : n = W.length) :
    Ok (reverseSlice lo n) s (fun _ s' => s' = { s with mem := P ++ (W.reverse ++ R) }) := by
  unfold reverseSlice
  exact reverseLoop_spec _ P W R lo _ s hm hlo (by omega) (by omega)

theorem sorted_snoc {lt : ε → ε → Bool} (sw : StrictWeak lt) {A : List ε} {l y : ε}
    (h : SortedBy lt (A ++ [l])) (hy : lt y l = false) : SortedBy lt ((A ++ [l]) ++ [y]) := by
  rw [sortedBy_append]
  refine ⟨h, sortedBy_singleton _, ?_⟩
  intro x hx z hz
  simp only [List.mem_singleton] at hz
  subst hz
  rw [sortedBy_append] at h
  rcases List.mem_append.1 hx with hx | hx
  · exact sw.negTrans z l x hy (h.2.2 x hx l (by simp))
  · simp only [List.mem_singleton] at hx
    subst hx
    exact hy

theorem take_succ_snoc {W : List ε} {n : Nat} (h0 : 0 < n) (h1 : n < W.length) :
    W.take n = W.take (n - 1) ++ [W[n - 1]] ∧ W.take (n + 1) = W.take n ++ [W[n]] := by
  refine ⟨?_, (List.take_append_getElem h1).symm⟩
  have := List.take_append_getElem (l := W) (i := n - 1) (by omega)
  rw [this]
  congr 1
  omega

theorem ascend_spec (h : Host σ ε) (lt : ε → ε → Bool) (P W R : List ε) (lo nrem : Int)
    (hlo : lo = P.length) (hn : nrem = W.length) :
    ∀ (f : Nat) (n : Int) (s : St σ ε), s.mem = P ++ (W ++ R) → 1 ≤ n → n ≤ nrem → (nrem - n).toNat + 1 ≤ f →
      Ok (ascend h lo nrem f n) s (fun r s' => Calm s s' ∧ Ends h s r s' ∧ ∀ k, r = some k →
        n ≤ k ∧ k ≤ nrem ∧ (Good h lt → SortedBy lt (W.take n.toNat) → SortedBy lt (W.take k.toNat)) ∧
        (k < nrem → Good h lt → ∃ x y, W[k.toNat]? = some x ∧ W[k.toNat - 1]? = some y ∧ lt x y = true)) := by
  intro f
  induction f with
  | zero => intro n s _ _ _ hf; omega
  | succ f ih =>
    intro n s hm h1 h2 hf
    unfold ascend
    split
    · rename_i hlt
      have g1 := seg_get (P := P) (S := R) (seg := W) (m := n) (by omega) (by omega)
      have g2 := seg_get (P := P) (S := R) (seg := W) (m := n - 1) (by omega) (by omega)
      simp only [ok_bind, ok_rdm]
      subst hlo hn
      refine ⟨g1.1, _, by rw [hm]; exact g1.2, g2.1, _, by rw [hm]; exact g2.2, ?_⟩
      refine ok_islt h lt _ _ s _ (fun b s1 c e g => ?_) (fun s1 c e _ => ?_)
      · cases b with
        | true =>
          simp only [ok_pure]
          refine ⟨c, e, ?_⟩
          rintro k hk
          simp only [Option.some.injEq] at hk
          subst hk
          refine ⟨by omega, by omega, fun _ h => h, fun _ G => ⟨_, _, List.getElem?_eq_getElem (by omega),
            List.getElem?_eq_getElem (by omega), ?_⟩⟩
          have := g G
          rw [this]
          congr 2
          omega
        | false =>
          simp only
          refine (ih (n + 1) s1 (by rw [c.mem, hm]) (by omega) (by omega) (by omega)).mono ?_
          rintro r s2 ⟨c2, e2, g2⟩
          refine ⟨c.trans c2, Ends.trans e e2, ?_⟩
          intro k hk
          obtain ⟨k1, k2, k3, k4⟩ := g2 k hk
          refine ⟨by omega, k2, fun G hs => k3 G ?_, k4⟩
          have t := take_succ_snoc (W := W) (n := n.toNat) (by omega) (by omega)
          rw [show (n + 1).toNat = n.toNat + 1 by omega, t.2, t.1]
          rw [t.1] at hs
          refine sorted_snoc G.sw hs ?_
          rw [g G]
          congr 2
          omega
      · simp only [ok_pure]
        exact ⟨c, e, by simp⟩
    · rename_i hlt
      rw [ok_pure]
      refine ⟨Calm.refl _, rfl, ?_⟩
      intro k hk
      simp only [Option.some.injEq] at hk
      subst hk
      exact ⟨by omega, by omega, fun _ h => h, fun h => absurd h hlt⟩

/-- What `count_run` knows about the first `n` elements while it follows a descending run: `C` holds the
elements up to the last strict descent, `E` the most recent equal ones in their original order; `O` is the
prefix as it was at first. -/
structure Desc (h : Host σ ε) (lt : ε → ε → Bool) (C E O : List ε) : Prop where
  ne : E ≠ []
  perm : (C ++ E).Perm O
  sorted : Good h lt → SortedBy lt (E ++ C.reverse)
  order : Good h lt → SameOrder lt (E ++ C.reverse) O
  below : Good h lt → ∀ e ∈ E, ∀ c ∈ C, lt e c = true
  equal : Good h lt → ∀ e ∈ E, ∀ e' ∈ E, lt e e' = false

theorem Desc.smaller {h : Host σ ε} {lt : ε → ε → Bool} {C E O : List ε} {x l : ε} (d : Desc h lt C E O)
    (hl : l ∈ E) (hx : Good h lt → lt x l = true) : Desc h lt (C ++ E.reverse) [x] (O ++ [x]) := by
  have hall : Good h lt → ∀ y ∈ E ++ C.reverse, lt x y = true := by
    intro G y hy
    rcases List.mem_append.1 hy with hy | hy
    · exact G.sw.lt_le (hx G) (d.equal G y hy l hl)
    · exact G.sw.trans x l y (hx G) (d.below G l hl y (List.mem_reverse.1 hy))
  refine ⟨by simp, ?_, ?_, ?_, ?_, ?_⟩
  · exact (((List.Perm.refl C).append E.reverse_perm).trans d.perm).append_right _
  · intro G
    simp only [List.reverse_append, List.reverse_reverse, List.singleton_append]
    rw [sortedBy_cons]
    exact ⟨fun y hy => G.sw.asymm (hall G y hy), d.sorted G⟩
  · intro G
    simp only [List.reverse_append, List.reverse_reverse]
    refine (SameOrder.swap G.sw (a := [x]) (b := E ++ C.reverse) ?_).trans ((d.order G).append (SameOrder.refl _))
    intro a ha y hy
    simp only [List.mem_singleton] at ha
    subst ha
    exact Or.inl (hall G y hy)
  · intro G e he c hc
    simp only [List.mem_singleton] at he
    subst he
    apply hall G
    simp only [List.mem_append, List.mem_reverse] at hc ⊢
    exact hc.symm
  · intro G e he e' he'
    simp only [List.mem_singleton] at he he'
    subst he he'
    exact G.sw.irrefl _

theorem Desc.same {h : Host σ ε} {lt : ε → ε → Bool} {C E O : List ε} {x l : ε} (d : Desc h lt C E O)
    (hl : l ∈ E) (h1 : Good h lt → lt x l = false) (h2 : Good h lt → lt l x = false) :
    Desc h lt C (E ++ [x]) (O ++ [x]) := by
  have hle : Good h lt → ∀ y ∈ E, lt x y = false ∧ lt y x = false := fun G y hy =>
    ⟨G.sw.negTrans x l y (h1 G) (d.equal G l hl y hy), G.sw.negTrans y l x (d.equal G y hy l hl) (h2 G)⟩
  have hlt : Good h lt → ∀ c ∈ C, lt x c = true := fun G c hc =>
    G.sw.le_lt (h2 G) (d.below G l hl c hc)
  refine ⟨by simp, ?_, ?_, ?_, ?_, ?_⟩
  · rw [← List.append_assoc]
    exact d.perm.append_right _
  · intro G
    have hs := d.sorted G
    rw [sortedBy_append] at hs
    rw [sortedBy_append, sortedBy_append]
    refine ⟨⟨hs.1, sortedBy_singleton _, ?_⟩, hs.2.1, ?_⟩
    · intro y hy z hz
      simp only [List.mem_singleton] at hz
      subst hz
      exact (hle G y hy).1
    · intro y hy z hz
      rcases List.mem_append.1 hy with hy | hy
      · exact hs.2.2 y hy z hz
      · simp only [List.mem_singleton] at hy
        subst hy
        exact G.sw.asymm (hlt G z (List.mem_reverse.1 hz))
  · intro G
    have : SameOrder lt ([x] ++ C.reverse) (C.reverse ++ [x]) := SameOrder.swap G.sw (by
      intro a ha y hy
      simp only [List.mem_singleton] at ha
      subst ha
      exact Or.inl (hlt G y (List.mem_reverse.1 hy)))
    have h3 := (SameOrder.refl E).append this
    rw [← List.append_assoc, ← List.append_assoc] at h3
    exact h3.trans ((d.order G).append (SameOrder.refl _))
  · intro G e he c hc
    rcases List.mem_append.1 he with he | he
    · exact d.below G e he c hc
    · simp only [List.mem_singleton] at he
      subst he
      exact hlt G c hc
  · intro G e he e' he'
    rcases List.mem_append.1 he with h1 | h1 <;> rcases List.mem_append.1 he' with h2 | h2
    · exact d.equal G e h1 e' h2
    · rw [List.mem_singleton.1 h2]
      exact (hle G e h1).2
    · rw [List.mem_singleton.1 h1]
      exact (hle G e' h2).1
    · rw [List.mem_singleton.1 h1, List.mem_singleton.1 h2]
      exact G.sw.irrefl _

theorem reverseLastNeq_spec (P C E R : List ε) (lo n neq : Int) (s : St σ ε) (hm : s.mem = P ++ ((C ++ E) ++ R))
    (hlo : lo = P.length) (hn : n = C.length + E.length) (hq : neq + 1 = E.length) :
    Ok (reverseLastNeq lo n neq) s (fun _ s' => s' = { s with mem := P ++ ((C ++ E.reverse) ++ R) }) := by
  unfold reverseLastNeq
  split
  · refine (reverseSlice_spec (P ++ C) E R _ _ s (by rw [hm]; simp) (by simp; omega) (by omega)).mono ?_
    rintro _ s' rfl
    simp
  · rename_i hne
    rw [ok_pure]
    have : E.reverse = E := by
      match E, hq with
      | [], hq => simp at hq; omega
      | [_], _ => rfl
      | _ :: _ :: _, hq => simp at hq; omega
    rw [this, ← hm]

theorem descend_spec (h : Host σ ε) (lt : ε → ε → Bool) (P R : List ε) (lo nrem : Int) (hlo : lo = P.length) :
    ∀ (f : Nat) (n neq : Int) (C E O T : List ε) (s : St σ ε), s.mem = P ++ ((C ++ E) ++ (T ++ R)) →
      Desc h lt C E O → n = C.length + E.length → neq + 1 = E.length → nrem = n + T.length →
      (nrem - n).toNat + 1 ≤ f →
      Ok (descend h lo nrem f n neq) s (fun r s' => Rest s s' ∧ Ends h s r s' ∧
        (r = none → ∃ V, s'.mem = P ++ (V ++ R) ∧ V.Perm (O ++ T)) ∧
        ∀ n' neq', r = some (n', neq') → ∃ C' E' O' T', s'.mem = P ++ ((C' ++ E') ++ (T' ++ R)) ∧
          Desc h lt C' E' O' ∧ n' = C'.length + E'.length ∧ neq' + 1 = E'.length ∧ nrem = n' + T'.length ∧
          n ≤ n' ∧ O' ++ T' = O ++ T) := by
  intro f
  induction f with
  | zero => intro n neq C E O T s _ _ _ _ _ hf; omega
  | succ f ih =>
    intro n neq C E O T s hm d hn hq hr hf
    unfold descend
    split
    · rename_i hlt
      match T, hm, hr with
      | [], _, hr => simp at hr; omega
      | x :: T, hm, hr =>
        obtain ⟨E0, l, rfl⟩ : ∃ E0 l, E = E0 ++ [l] :=
          ⟨E.dropLast, E.getLast d.ne, (List.dropLast_concat_getLast _).symm⟩
        have em1 : s.mem = (P ++ (C ++ (E0 ++ [l]))) ++ x :: (T ++ R) := by rw [hm]; simp
        have em2 : s.mem = (P ++ (C ++ E0)) ++ l :: x :: (T ++ R) := by rw [hm]; simp
        have l1 : lo + n = ((P ++ (C ++ (E0 ++ [l]))).length : Nat) := by
          subst hlo hn; simp only [List.length_append, List.length_singleton]; omega
        have l2 : lo + (n - 1) = ((P ++ (C ++ E0)).length : Nat) := by
          subst hlo hn; simp only [List.length_append, List.length_singleton]; omega
        have g1 := mid_get (x := x) (R := T ++ R) l1
        have g2 := mid_get (x := l) (R := x :: (T ++ R)) l2
        simp only [ok_bind, ok_rdm]
        refine ⟨g1.1, x, by rw [em1]; exact g1.2, g2.1, l, by rw [em2]; exact g2.2, ?_⟩
        have hfail : ∀ s1 : St σ ε, Calm s s1 → ∃ V, s1.mem = P ++ (V ++ R) ∧ V.Perm (O ++ x :: T) := by
          intro s1 c
          refine ⟨(C ++ (E0 ++ [l])) ++ x :: T, by rw [c.mem, hm]; simp, d.perm.append_right _⟩
        refine ok_islt h lt _ _ s _ (fun b s1 c e g => ?_) (fun s1 c e _ => ?_)
        · cases b with
          | true =>
            simp only [ok_bind]
            refine (reverseLastNeq_spec P C (E0 ++ [l]) (x :: T ++ R) lo n neq s1 (by rw [c.mem, hm]) hlo hn
              hq).mono ?_
            rintro _ s2 rfl
            have d' := d.smaller (x := x) (l := l) (by simp) (fun G => (g G).symm)
            refine (ih (n + 1) 0 _ [x] (O ++ [x]) T _ ?_ d' ?_ ?_ ?_ ?_).mono ?_
            · simp
            · simp only [List.length_append, List.length_reverse, List.length_singleton] at hn ⊢; omega
            · simp
            · simp only [List.length_cons] at hr; omega
            · omega
            · rintro r s3 ⟨c3, e3, f3, g3⟩
              refine ⟨Rest.trans c.rest ⟨c3.minGallop, c3.alloced, c3.pending⟩, Ends.trans e e3, ?_, ?_⟩
              · intro hr
                obtain ⟨V, v1, v2⟩ := f3 hr
                exact ⟨V, v1, by simpa using v2⟩
              · intro n' neq' hr
                obtain ⟨C', E', O', T', p1, p2, p3, p4, p5, p6, p7⟩ := g3 n' neq' hr
                exact ⟨C', E', O', T', p1, p2, p3, p4, p5, by omega, by simpa using p7⟩
          | false =>
            simp only [ok_bind, ok_rdm]
            refine ⟨g2.1, l, by rw [c.mem, em2]; exact g2.2, g1.1, x, by rw [c.mem, em1]; exact g1.2, ?_⟩
            refine ok_islt h lt _ _ s1 _ (fun b2 s2 c2 e2 g2 => ?_) (fun s2 c2 e2 _ => ?_)
            · cases b2 with
              | true =>
                simp only [ok_pure]
                refine ⟨(c.trans c2).rest, Eq.trans e2 e, by simp, ?_⟩
                intro n' neq' hr'
                simp only [Option.some.injEq, Prod.mk.injEq] at hr'
                obtain ⟨rfl, rfl⟩ := hr'
                exact ⟨C, E0 ++ [l], O, x :: T, by rw [c2.mem, c.mem, hm], d, hn, hq, hr, by omega, rfl⟩
              | false =>
                simp only
                have d' := d.same (x := x) (l := l) (by simp) (fun G => (g G).symm) (fun G => (g2 G).symm)
                refine (ih (n + 1) (neq + 1) _ _ (O ++ [x]) T _ ?_ d' ?_ ?_ ?_ ?_).mono ?_
                · rw [c2.mem, c.mem, hm]; simp
                · simp only [List.length_append, List.length_singleton] at hn ⊢; omega
                · simp only [List.length_append, List.length_singleton] at hq ⊢; omega
                · simp only [List.length_cons] at hr; omega
                · omega
                · rintro r s3 ⟨c3, e3, f3, g3⟩
                  refine ⟨Rest.trans (c.trans c2).rest c3, Ends.trans (Eq.trans e2 e) e3, ?_, ?_⟩
                  · intro hr
                    obtain ⟨V, v1, v2⟩ := f3 hr
                    exact ⟨V, v1, by simpa using v2⟩
                  · intro n' neq' hr
                    obtain ⟨C', E', O', T', p1, p2, p3, p4, p5, p6, p7⟩ := g3 n' neq' hr
                    exact ⟨C', E', O', T', p1, p2, p3, p4, p5, by omega, by simpa using p7⟩
            · simp only [ok_pure]
              exact ⟨(c.trans c2).rest, e2, fun _ => hfail s2 (c.trans c2), by simp⟩
        · simp only [ok_pure]
          exact ⟨c.rest, e, fun _ => hfail s1 c, by simp⟩
    · rename_i hlt
      rw [ok_pure]
      refine ⟨Rest.refl _, rfl, by simp, ?_⟩
      intro n' neq' hr'
      simp only [Option.some.injEq, Prod.mk.injEq] at hr'
      obtain ⟨rfl, rfl⟩ := hr'
      exact ⟨C, E, O, T, hm, d, hn, hq, hr, by omega, rfl⟩

/-- Outcome of finding or extending a run at the front of `W`. -/
def RunPost (h : Host σ ε) (lt : ε → ε → Bool) (P W R : List ε) (s : St σ ε) (r : Option Int) (s' : St σ ε) : Prop :=
  ∃ W', Rearr h lt P W R s r s' W' ∧ ∀ k, r = some k → 1 ≤ k ∧ k ≤ W.length ∧
    (Good h lt → SortedBy lt (W'.take k.toNat))

theorem countDescending_spec (h : Host σ ε) (lt : ε → ε → Bool) (P R C O T : List ε) (x : ε) (lo nrem n : Int)
    (s : St σ ε) (hm : s.mem = P ++ ((C ++ [x]) ++ (T ++ R))) (d : Desc h lt C [x] O) (hlo : lo = P.length)
    (hn : n = C.length + 1) (hr : nrem = n + T.length) :
    Ok (countDescending h lo nrem n) s (RunPost h lt P (O ++ T) R s) := by
  unfold countDescending
  simp only [ok_bind]
  refine (descend_spec h lt P R lo nrem hlo _ n 0 C [x] O T s hm d hn (by simp) hr (by omega)).mono ?_
  rintro r s1 ⟨c, e, hf, hg⟩
  match r, hf, hg, e with
  | none, hf, _, e =>
    simp only [ok_pure]
    obtain ⟨V, v1, v2⟩ := hf rfl
    exact ⟨V, ⟨c, v1, v2, e, by simp⟩, by simp⟩
  | some (n', neq), _, hg, e =>
    obtain ⟨C', E', O', T', p1, p2, p3, p4, p5, p6, p7⟩ := hg n' neq rfl
    simp only [ok_bind]
    refine (reverseLastNeq_spec P C' E' (T' ++ R) lo n' neq s1 p1 hlo p3 p4).mono ?_
    rintro _ s2 rfl
    refine (reverseSlice_spec P (C' ++ E'.reverse) (T' ++ R) lo n' _ rfl hlo (by simp; omega)).mono ?_
    rintro _ s3 rfl
    have e0 : (C' ++ E'.reverse).reverse = E' ++ C'.reverse := by simp
    simp only [e0]
    refine (ascend_spec h lt P ((E' ++ C'.reverse) ++ T') R lo nrem hlo (by simp; omega) _ n' _ ?_ ?_ ?_ ?_).mono ?_
    · simp
    · have := List.length_pos_iff.2 p2.ne
      omega
    · omega
    · omega
    · rintro r s4 ⟨c4, e4, g4⟩
      refine ⟨(E' ++ C'.reverse) ++ T', ⟨?_, ?_, ?_, ?_, ?_⟩, ?_⟩
      · exact c.trans ⟨c4.minGallop, c4.alloced, c4.pending⟩
      · rw [c4.mem]; simp
      · rw [← p7]
        refine List.Perm.append_right _ (List.Perm.trans ?_ p2.perm)
        exact (List.perm_append_comm).trans (C'.reverse_perm.append_right _)
      · exact Ends.trans e e4
      · intro _ G
        rw [← p7]
        exact (p2.order G).append (SameOrder.refl _)
      · intro k hk
        obtain ⟨k1, k2, k3, _⟩ := g4 k hk
        have hlen : (O ++ T).length = nrem.toNat := by
          rw [← p7, List.length_append, ← p2.perm.length_eq, List.length_append]; omega
        refine ⟨?_, by omega, fun G => k3 G ?_⟩
        · have := List.length_pos_iff.2 p2.ne
          omega
        · have : (E' ++ C'.reverse ++ T').take n'.toNat = E' ++ C'.reverse := by
            rw [List.take_append_of_le_length (by simp; omega), List.take_of_length_le (by simp; omega)]
          rw [this]
          exact p2.sorted G

theorem countRun_spec (h : Host σ ε) (lt : ε → ε → Bool) (P W R : List ε) (lo nrem : Int) (s : St σ ε)
    (hm : s.mem = P ++ (W ++ R)) (hlo : lo = P.length) (hn : nrem = W.length) (hne : W ≠ []) :
    Ok (countRun h lo nrem) s (RunPost h lt P W R s) := by
  have hpos := List.length_pos_iff.2 hne
  unfold countRun
  simp only [ok_bind, ok_check, decide_eq_true_eq]
  refine ⟨by omega, ?_⟩
  refine (ascend_spec h lt P W R lo nrem hlo hn _ 1 s hm (by omega) (by omega) (by omega)).mono ?_
  rintro r s1 ⟨c, e, g⟩
  have hfail : ∀ s2 : St σ ε, Calm s s2 → Raised h s2 → RunPost h lt P W R s none s2 := by
    intro s2 c2 e2
    exact ⟨W, ⟨c2.rest, by rw [c2.mem, hm], List.Perm.refl _, e2, by simp⟩, by simp⟩
  match r, g, e with
  | none, _, e =>
    simp only [ok_pure]
    exact hfail s1 c e
  | some n, g, e =>
    obtain ⟨n1, n2, n3, n4⟩ := g n rfl
    have hsorted : Good h lt → SortedBy lt (W.take n.toNat) := fun G => n3 G (by
      match W, hne with
      | w :: W, _ => exact sortedBy_singleton w)
    have hdone : ∀ s2 : St σ ε, Calm s s2 → s2.err = s.err → RunPost h lt P W R s (some n) s2 := by
      intro s2 c2 e2
      refine ⟨W, ⟨c2.rest, by rw [c2.mem, hm], List.Perm.refl _, e2, fun _ _ => SameOrder.refl _⟩, ?_⟩
      intro k hk
      simp only [Option.some.injEq] at hk
      subst hk
      exact ⟨n1, by omega, hsorted⟩
    simp only
    split
    · rw [ok_pure]
      exact hdone s1 c e
    · rename_i hnn
      have hlen : n.toNat < W.length := by omega
      have hlt : Good h lt → lt W[n.toNat] W[n.toNat - 1] = true := by
        intro G
        obtain ⟨x, y, hx, hy, hxy⟩ := n4 (by omega) G
        rw [List.getElem?_eq_getElem (by omega)] at hx hy
        simp only [Option.some.injEq] at hx hy
        rw [hx, hy, hxy]
      have hW : W.take n.toNat ++ W[n.toNat] :: W.drop (n.toNat + 1) = W := by
        rw [← List.drop_eq_getElem_cons, List.take_append_drop]
      split
      · rename_i hn1
        have q1 := seg_get (P := P) (S := R) (seg := W) (m := 0) (by omega) (by omega)
        have q2 := seg_get (P := P) (S := R) (seg := W) (m := n - 1) (by omega) (by omega)
        simp only [ok_bind, ok_rdm]
        refine ⟨by omega, W[0], by rw [c.mem, hm, hlo]; simpa using q1.2, by omega, _, by rw [c.mem, hm, hlo]; exact q2.2, ?_⟩
        refine ok_islt h lt _ _ s1 _ (fun b s2 c2 e2 g2 => ?_) (fun s2 c2 e2 _ => ?_)
        · cases b with
          | true =>
            simp only [ok_pure]
            exact hdone s2 (c.trans c2) (Eq.trans e2 e)
          | false =>
            simp only [ok_bind]
            refine (reverseSlice_spec P (W.take n.toNat) (W[n.toNat] :: W.drop (n.toNat + 1) ++ R) lo n s2 ?_ hlo ?_).mono ?_
            · rw [c2.mem, c.mem, hm, ← List.append_assoc (W.take _), hW]
            · rw [List.length_take]; omega
            · rintro _ s3 rfl
              have d : Desc h lt (W.take n.toNat).reverse [W[n.toNat]] (W.take n.toNat ++ [W[n.toNat]]) := by
                have hbelow : Good h lt → ∀ y ∈ W.take n.toNat, lt W[n.toNat] y = true := by
                  intro G y hy
                  rw [List.mem_take_iff_getElem] at hy
                  obtain ⟨i, hi, rfl⟩ := hy
                  have s0 := hsorted G
                  have h1 : lt W[i] W[0] = false := by
                    rcases Nat.eq_zero_or_pos i with rfl | hi0
                    · exact G.sw.irrefl _
                    · have := (List.pairwise_iff_getElem.1 s0) 0 i (by simp; omega) (by simp; omega) hi0
                      simpa using this
                  have h2 : lt W[0] W[n.toNat - 1] = false := by
                    have := (g2 G).symm
                    rw [← this]
                    congr 2
                    omega
                  exact G.sw.lt_le (hlt G) (G.sw.negTrans _ _ _ h1 h2)
                refine ⟨by simp, (List.reverse_perm _).append_right _, ?_, ?_, ?_, ?_⟩
                · intro G
                  rw [List.reverse_reverse, List.singleton_append, sortedBy_cons]
                  exact ⟨fun y hy => G.sw.asymm (hbelow G y hy), hsorted G⟩
                · intro G
                  rw [List.reverse_reverse]
                  refine SameOrder.swap G.sw ?_
                  intro a ha y hy
                  simp only [List.mem_singleton] at ha
                  subst ha
                  exact Or.inl (hbelow G y hy)
                · intro G e' he' c' hc'
                  simp only [List.mem_singleton] at he'
                  subst he'
                  exact hbelow G c' (List.mem_reverse.1 hc')
                · intro G a ha b hb
                  simp only [List.mem_singleton] at ha hb
                  subst ha hb
                  exact G.sw.irrefl _
              refine (countDescending_spec h lt P R _ _ (W.drop (n.toNat + 1)) _ lo nrem (n + 1) _ ?_ d hlo ?_ ?_).mono ?_
              · simp only [List.append_assoc, List.nil_append, List.cons_append]
              · simp only [List.length_reverse, List.length_take]; omega
              · simp only [List.length_drop]; omega
              · rintro r s4 ⟨W', hW', hk'⟩
                have e5 : W.take n.toNat ++ [W[n.toNat]] ++ W.drop (n.toNat + 1) = W := by
                  rw [List.append_assoc, List.singleton_append, hW]
                rw [e5] at hW' hk'
                exact ⟨W', ⟨(c.trans c2).rest.trans ⟨hW'.rest.minGallop, hW'.rest.alloced, hW'.rest.pending⟩, hW'.mem, hW'.perm,
                  Ends.trans (Eq.trans e2 e) hW'.ends, hW'.order⟩, hk'⟩
        · simp only [ok_pure]
          exact hfail s2 (c.trans c2) e2
      · rename_i hn1
        have hn1' : n = 1 := by omega
        subst hn1'
        rcases W with _ | ⟨w, _ | ⟨x, T⟩⟩
        · simp at hpos
        · simp at hlen
        · have hlt' : Good h lt → lt x w = true := hlt
          have d : Desc h lt [w] [x] [w, x] := by
            refine ⟨by simp, List.Perm.refl _, ?_, ?_, ?_, ?_⟩
            · intro G
              rw [List.reverse_singleton, List.singleton_append, sortedBy_cons]
              exact ⟨fun y hy => by simp only [List.mem_singleton] at hy; subst hy; exact G.sw.asymm (hlt' G),
                sortedBy_singleton _⟩
            · intro G
              refine SameOrder.swap G.sw (a := [x]) (b := [w]) ?_
              intro a ha y hy
              simp only [List.mem_singleton] at ha hy
              subst ha hy
              exact Or.inl (hlt' G)
            · intro G a ha b hb
              simp only [List.mem_singleton] at ha hb
              subst ha hb
              exact hlt' G
            · intro G a ha b hb
              simp only [List.mem_singleton] at ha hb
              subst ha hb
              exact G.sw.irrefl _
          refine (countDescending_spec h lt P R _ _ T _ lo nrem (1 + 1) s1 ?_ d hlo rfl ?_).mono ?_
          · rw [c.mem, hm]; simp
          · simp only [List.length_cons] at hn; omega
          · rintro r s4 ⟨W', hW', hk'⟩
            exact ⟨W', ⟨c.rest.trans hW'.rest, hW'.mem, hW'.perm, Ends.trans e hW'.ends, hW'.order⟩, hk'⟩

/-! ## `binarysort` -/

theorem binLoop_spec (h : Host σ ε) (lt : ε → ε → Bool) (P S R : List ε) (pivot : ε) (lo : Int) (hlo : lo = P.length)
    (hs : Good h lt → SortedBy lt S) :
    ∀ (f : Nat) (l r : Int) (s : St σ ε), s.mem = P ++ (S ++ R) → 0 ≤ l → l ≤ r → r ≤ S.length →
      (r - l).toNat + 1 ≤ f →
      (Good h lt → ∀ i, 0 ≤ i → i < l → at' S (fun x => lt pivot x) i = false) →
      (Good h lt → ∀ i, r ≤ i → i < (S.length : Int) → at' S (fun x => lt pivot x) i = true) →
      Ok (binLoop h lo pivot f l r) s (Found h lt S (fun x => lt pivot x) s) := by
  intro f
  have mono : Good h lt → ∀ i j, 0 ≤ i → i ≤ j → j < (S.length : Int) →
      at' S (fun x => lt pivot x) i = true → at' S (fun x => lt pivot x) j = true := fun G =>
    sorted_mono (hs G) (fun x y h1 h2 => G.sw.lt_le h2 h1)
  induction f with
  | zero => intro l r s _ _ _ _ hf; omega
  | succ f ih =>
    intro l r s hm h0 h1 h2 hf hl hr
    unfold binLoop
    split
    · rename_i hlt
      have hm1 : l ≤ (l + r) / 2 := by omega
      have hm2 : (l + r) / 2 < r := by omega
      simp only [ok_bind, ok_rdm]
      generalize (l + r) / 2 = m at hm1 hm2
      have g1 := seg_get (P := P) (S := R) (seg := S) (m := m) (by omega) (by omega)
      refine ⟨by omega, _, by rw [hm, hlo]; exact g1.2, ?_⟩
      have hat : at' S (fun x => lt pivot x) m = lt pivot (S[m.toNat]'(by omega)) :=
        at'_eq (List.getElem?_eq_getElem (by omega))
      refine ok_islt h lt _ _ s _ (fun b s1 c e g => ?_) (fun s1 c e _ => ?_)
      · cases b with
        | true =>
          simp only
          refine (ih l m s1 (by rw [c.mem, hm]) h0 (by omega) (by omega) (by omega) hl ?_).mono ?_
          · intro G i hi1 hi2
            exact mono G m i (by omega) hi1 hi2 (by rw [hat, ← g G])
          · rintro r s2 ⟨c2, e2, g2⟩
            exact ⟨c.trans c2, Ends.trans e e2, g2⟩
        | false =>
          simp only
          refine (ih (m + 1) r s1 (by rw [c.mem, hm]) (by omega) (by omega) (by omega) (by omega) ?_ hr).mono ?_
          · intro G i hi1 hi2
            cases hpi : at' S (fun x => lt pivot x) i with
            | false => rfl
            | true =>
              have := mono G i m hi1 (by omega) (by omega) hpi
              rw [hat, ← g G] at this
              cases this
          · rintro r s2 ⟨c2, e2, g2⟩
            exact ⟨c.trans c2, Ends.trans e e2, g2⟩
      · simp only [ok_pure]
        exact ⟨c, e, by simp⟩
    · simp only [ok_bind, ok_check, ok_pure, decide_eq_true_eq]
      have : l = r := by omega
      subst this
      refine ⟨rfl, found_of (Calm.refl _) rfl (Calm.refl _) rfl ?_⟩
      intro k hk
      simp only [Option.some.injEq] at hk
      subst hk
      exact ⟨h0, h2, fun G => ⟨hl G, hr G⟩⟩

theorem slide_spec (P X : List ε) (lo l : Int) (hlo : lo = P.length) (hl : l = X.length) :
    ∀ (f : Nat) (Y : List ε) (R : List ε) (z : ε) (m : Int) (s : St σ ε), s.mem = P ++ (X ++ (Y ++ z :: R)) →
      m = X.length + Y.length → Y.length + 1 ≤ f →
      Ok (slide lo l f m) s (fun _ s' => ∃ z', s' = { s with mem := P ++ (X ++ z' :: (Y ++ R)) }) := by
  intro f
  induction f with
  | zero => intro Y R z m s _ _ hf; omega
  | succ f ih =>
    intro Y R z m s hm hmm hf
    unfold slide
    split
    · rename_i hgt
      obtain ⟨Y0, y, rfl⟩ : ∃ Y0 y, Y = Y0 ++ [y] := by
        have : Y ≠ [] := by rintro rfl; simp at hmm; omega
        exact ⟨Y.dropLast, Y.getLast this, (List.dropLast_concat_getLast _).symm⟩
      simp only [List.length_append, List.length_singleton] at hmm hf
      have e1 : s.mem = (P ++ (X ++ Y0)) ++ y :: z :: R := by rw [hm]; simp
      have e2 : s.mem = (P ++ (X ++ (Y0 ++ [y]))) ++ z :: R := by rw [hm]; simp
      have l1 : lo + (m - 1) = ((P ++ (X ++ Y0)).length : Nat) := by simp only [List.length_append]; omega
      have l2 : lo + m = ((P ++ (X ++ (Y0 ++ [y]))).length : Nat) := by
        simp only [List.length_append, List.length_singleton]; omega
      have g1 := mid_get (x := y) (R := z :: R) l1
      have w2 := mid_set (x := z) (y := y) (R := R) l2
      simp only [ok_bind, ok_rdm, ok_wr]
      refine ⟨g1.1, y, by rw [e1]; exact g1.2, by rw [e2]; exact w2.1, ?_⟩
      refine (ih Y0 (y :: R) y (m - 1) _ ?_ (by omega) (by omega)).mono ?_
      · show s.mem.set _ y = _
        rw [e2, w2.2]; simp
      · rintro _ s' ⟨z', rfl⟩
        exact ⟨z', by simp⟩
    · rename_i hgt
      rw [ok_pure]
      have : Y = [] := List.eq_nil_of_length_eq_zero (by omega)
      subst this
      refine ⟨z, ?_⟩
      have : P ++ (X ++ z :: ([] ++ R)) = s.mem := by rw [hm]; rfl
      rw [this]

theorem binaryLoop_spec (h : Host σ ε) (lt : ε → ε → Bool) (P R : List ε) (lo n : Int) (hlo : lo = P.length) :
    ∀ (f : Nat) (ok : Int) (S T : List ε) (s : St σ ε), s.mem = P ++ ((S ++ T) ++ R) → ok = S.length → 0 < ok →
      n = ok + T.length → T.length + 1 ≤ f → (Good h lt → SortedBy lt S) →
      Ok (binaryLoop h lo n f ok) s (fun r s' => ∃ W', Rearr h lt P (S ++ T) R s r s' W' ∧
        (r.isSome → Good h lt → SortedBy lt W')) := by
  intro f
  induction f with
  | zero => intro ok S T s _ _ _ _ hf; omega
  | succ f ih =>
    intro ok S T s hm hok h0 hn hf hs
    unfold binaryLoop
    split
    · rename_i hlt
      match T, hm, hn, hf with
      | [], _, hn, _ => simp at hn; omega
      | p :: T, hm, hn, hf =>
        simp only [List.length_cons] at hn hf
        have e1 : s.mem = (P ++ S) ++ p :: (T ++ R) := by rw [hm]; simp
        have e2 : s.mem = P ++ (S ++ (p :: T ++ R)) := by rw [hm]; simp
        have g1 := mid_get (P := P ++ S) (x := p) (R := T ++ R) (i := lo + ok) (by simp; omega)
        simp only [ok_bind, ok_rdm, ok_check, decide_eq_true_eq]
        refine ⟨g1.1, p, by rw [e1]; exact g1.2, h0, ?_⟩
        refine (binLoop_spec h lt P S (p :: T ++ R) p lo hlo hs _ 0 ok s e2 (by omega) (by omega) (by omega) (by omega)
          (fun _ i hi hi' => by omega) (fun _ i hi hi' => by omega)).mono ?_
        rintro r s1 ⟨c, e, g⟩
        match r, g, e with
        | none, _, e =>
          simp only [ok_pure]
          exact ⟨S ++ p :: T, ⟨c.rest, by rw [c.mem, hm], List.Perm.refl _, e, by simp⟩, by simp⟩
        | some l, g, e =>
          obtain ⟨X, Y, rfl, hl, hXY⟩ := g l rfl
          simp only [ok_bind]
          refine (slide_spec P X lo l hlo hl _ Y (T ++ R) p ok s1 ?_ ?_ ?_).mono ?_
          · rw [c.mem, hm]; simp
          · simp only [List.length_append] at hok; omega
          · simp only [List.length_append] at hok; omega
          · rintro _ s2 ⟨z', rfl⟩
            have l1 : lo + l = ((P ++ X).length : Nat) := by simp only [List.length_append]; omega
            have w1 := mid_set (x := z') (y := p) (R := Y ++ (T ++ R)) l1
            rw [ok_wr]
            simp only [← List.append_assoc P X]
            refine ⟨w1.1, ?_⟩
            rw [w1.2]
            have hsort : Good h lt → SortedBy lt (X ++ p :: Y) := by
              intro G
              obtain ⟨g1, g2⟩ := hXY G
              have hs' := hs G
              rw [sortedBy_append] at hs'
              rw [sortedBy_append, sortedBy_cons]
              refine ⟨hs'.1, ⟨fun y hy => G.sw.asymm (g2 y hy), hs'.2.1⟩, ?_⟩
              intro x hx y hy
              rcases List.mem_cons.1 hy with rfl | hy
              · exact g1 x hx
              · exact hs'.2.2 x hx y hy
            refine (ih (ok + 1) (X ++ p :: Y) T _ ?_ ?_ ?_ ?_ ?_ hsort).mono ?_
            · simp
            · simp only [List.length_append, List.length_cons] at hok ⊢; omega
            · omega
            · omega
            · omega
            · rintro r s3 ⟨W', hW', hsrt⟩
              refine ⟨W', ⟨?_, hW'.mem, ?_, ?_, ?_⟩, hsrt⟩
              · exact c.rest.trans ⟨hW'.rest.minGallop, hW'.rest.alloced, hW'.rest.pending⟩
              · refine hW'.perm.trans ?_
                rw [show X ++ p :: Y ++ T = X ++ ([p] ++ Y) ++ T by simp,
                  show X ++ Y ++ p :: T = X ++ (Y ++ [p]) ++ T by simp]
                exact List.Perm.append_right _ (List.Perm.append_left _ List.perm_append_comm)
              · exact Ends.trans e hW'.ends
              · intro hr G
                refine (hW'.order hr G).trans ?_
                rw [show X ++ p :: Y ++ T = X ++ ([p] ++ Y) ++ T by simp,
                  show X ++ Y ++ p :: T = X ++ (Y ++ [p]) ++ T by simp]
                refine SameOrder.append (SameOrder.append (SameOrder.refl _) ?_) (SameOrder.refl _)
                refine SameOrder.swap G.sw ?_
                intro a ha y hy
                simp only [List.mem_singleton] at ha
                subst ha
                exact Or.inl ((hXY G).2 y hy)
    · rename_i hlt
      rw [ok_pure]
      have : T = [] := List.eq_nil_of_length_eq_zero (by omega)
      subst this
      exact ⟨S ++ [], ⟨Rest.refl _, hm, List.Perm.refl _, rfl, fun _ _ => SameOrder.refl _⟩, fun _ G => by
        simpa using hs G⟩

theorem binarysort_spec (h : Host σ ε) (lt : ε → ε → Bool) (P S T R : List ε) (lo n ok : Int) (s : St σ ε)
    (hm : s.mem = P ++ ((S ++ T) ++ R)) (hlo : lo = P.length) (hok : ok = S.length) (h0 : 1 ≤ ok)
    (hn : n = ok + T.length) (h64 : n ≤ 64) (hs : Good h lt → SortedBy lt S) :
    Ok (binarysort h lo n ok) s (fun r s' => ∃ W', Rearr h lt P (S ++ T) R s r s' W' ∧
        (r.isSome → Good h lt → SortedBy lt W')) := by
  unfold binarysort
  rw [ok_bind, ok_check]
  refine ⟨by simp; omega, ?_⟩
  rw [if_neg (by omega)]
  exact binaryLoop_spec h lt P R lo n hlo _ ok S T s hm hok (by omega) hn (by omega) hs

end Verif.CPySort
