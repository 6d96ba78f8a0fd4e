import Verif.Lemmas.CPySortBase

/-!
# `gallop_right` and `gallop_left`
-/

namespace Verif.CPySort

open Verif.Spec

variable {σ ε : Type}

/-- A predicate on positions of `seg`. -/
def at' (seg : List ε) (t : ε → Bool) (i : Int) : Bool :=
  match seg[i.toNat]? with
  | some x => t x
  | none => true

theorem at'_eq {seg : List ε} {t : ε → Bool} {i : Int} {x : ε} (h : seg[i.toNat]? = some x) :
    at' seg t i = t x := by
  simp [at', h]

theorem seg_get {P seg S : List ε} {m : Int} (h0 : 0 ≤ m) (h1 : m < seg.length) :
    0 ≤ (P.length : Int) + m ∧ (P ++ (seg ++ S))[((P.length : Int) + m).toNat]? = some (seg[m.toNat]'(by omega)) := by
  refine ⟨by omega, ?_⟩
  have e : ((P.length : Int) + m).toNat = P.length + m.toNat := by omega
  rw [e, List.getElem?_append_right (by omega)]
  rw [show P.length + m.toNat - P.length = m.toNat by omega]
  rw [List.getElem?_append_left (by omega), List.getElem?_eq_getElem (by omega)]

theorem probe_lt (h : Host σ ε) (lt : ε → ε → Bool) (key : ε) (P seg S : List ε) (f : Int → Int) (i : Int)
    (hi : 0 ≤ f i) (hi2 : f i < seg.length) (g : Int → Int) (hg : g i = P.length + f i) :
    Probe h lt (fun o => do islt h key (← rd (P ++ (seg ++ S)) (g o))) (fun o => at' seg (fun x => lt key x) (f o)) i := by
  intro s
  have := seg_get (P := P) (S := S) hi hi2
  rw [ok_bind, ok_rd, hg]
  refine ⟨this.1, _, this.2, ?_⟩
  have e : at' seg (fun x => lt key x) (f i) = lt key (seg[(f i).toNat]'(by omega)) :=
    at'_eq (List.getElem?_eq_getElem (by omega))
  refine ok_islt h lt _ _ s _ (fun b s' c e' gg => ⟨c, e', ?_⟩) (fun s' c e' _ => ⟨c, e', by simp⟩)
  intro b' hb G
  simp only [Option.some.injEq] at hb
  subst hb
  rw [gg G]
  exact e.symm

theorem probe_nlt (h : Host σ ε) (lt : ε → ε → Bool) (key : ε) (P seg S : List ε) (f : Int → Int) (i : Int)
    (hi : 0 ≤ f i) (hi2 : f i < seg.length) (g : Int → Int) (hg : g i = P.length + f i) :
    Probe h lt (fun o => do isnlt h key (← rd (P ++ (seg ++ S)) (g o))) (fun o => !at' seg (fun x => lt key x) (f o)) i := by
  intro s
  have := seg_get (P := P) (S := S) hi hi2
  rw [ok_bind, ok_rd, hg]
  refine ⟨this.1, _, this.2, ?_⟩
  have e : at' seg (fun x => lt key x) (f i) = lt key (seg[(f i).toNat]'(by omega)) :=
    at'_eq (List.getElem?_eq_getElem (by omega))
  refine ok_isnlt h lt _ _ s _ (fun b s' c e' gg => ⟨c, e', ?_⟩) (fun s' c e' _ => ⟨c, e', by simp⟩)
  intro b' hb G
  simp only [Option.some.injEq] at hb
  subst hb
  rw [gg G]
  simp only
  rw [e]

theorem probe_gt (h : Host σ ε) (lt : ε → ε → Bool) (key : ε) (P seg S : List ε) (f : Int → Int) (i : Int)
    (hi : 0 ≤ f i) (hi2 : f i < seg.length) (g : Int → Int) (hg : g i = P.length + f i) :
    Probe h lt (fun o => do islt h (← rd (P ++ (seg ++ S)) (g o)) key) (fun o => !at' seg (fun x => !lt x key) (f o)) i := by
  intro s
  have := seg_get (P := P) (S := S) hi hi2
  rw [ok_bind, ok_rd, hg]
  refine ⟨this.1, _, this.2, ?_⟩
  have e : at' seg (fun x => !lt x key) (f i) = !lt (seg[(f i).toNat]'(by omega)) key :=
    at'_eq (List.getElem?_eq_getElem (by omega))
  refine ok_islt h lt _ _ s _ (fun b s' c e' gg => ⟨c, e', ?_⟩) (fun s' c e' _ => ⟨c, e', by simp⟩)
  intro b' hb G
  simp only [Option.some.injEq] at hb
  subst hb
  rw [gg G]
  simp only
  rw [e, Bool.not_not]

theorem probe_ngt (h : Host σ ε) (lt : ε → ε → Bool) (key : ε) (P seg S : List ε) (f : Int → Int) (i : Int)
    (hi : 0 ≤ f i) (hi2 : f i < seg.length) (g : Int → Int) (hg : g i = P.length + f i) :
    Probe h lt (fun o => do isnlt h (← rd (P ++ (seg ++ S)) (g o)) key) (fun o => at' seg (fun x => !lt x key) (f o)) i := by
  intro s
  have := seg_get (P := P) (S := S) hi hi2
  rw [ok_bind, ok_rd, hg]
  refine ⟨this.1, _, this.2, ?_⟩
  have e : at' seg (fun x => !lt x key) (f i) = !lt (seg[(f i).toNat]'(by omega)) key :=
    at'_eq (List.getElem?_eq_getElem (by omega))
  refine ok_isnlt h lt _ _ s _ (fun b s' c e' gg => ⟨c, e', ?_⟩) (fun s' c e' _ => ⟨c, e', by simp⟩)
  intro b' hb G
  simp only [Option.some.injEq] at hb
  subst hb
  rw [gg G]
  exact e.symm

/-- Outcome of a search for the border of `t` in `seg`. -/
def Found (h : Host σ ε) (lt : ε → ε → Bool) (seg : List ε) (t : ε → Bool) (s : St σ ε) (r : Option Int)
    (s' : St σ ε) : Prop :=
  Calm s s' ∧ Ends h s r s' ∧ ∀ k, r = some k → ∃ X Y, seg = X ++ Y ∧ k = X.length ∧
    (Good h lt → (∀ x ∈ X, t x = false) ∧ ∀ y ∈ Y, t y = true)

theorem found_of {h : Host σ ε} {lt : ε → ε → Bool} {seg : List ε} {t : ε → Bool} {s s1 s' : St σ ε}
    {r : Option Int} (c0 : Calm s s1) (e0 : s1.err = s.err) (c : Calm s1 s') (e : Ends h s1 r s')
    (hk : ∀ k, r = some k → 0 ≤ k ∧ k ≤ seg.length ∧ (Good h lt →
      (∀ i, 0 ≤ i → i < k → at' seg t i = false) ∧ (∀ i, k ≤ i → i < seg.length → at' seg t i = true))) :
    Found h lt seg t s r s' := by
  refine ⟨c0.trans c, Ends.trans e0 e, ?_⟩
  intro k hr
  obtain ⟨k0, k1, g⟩ := hk k hr
  refine ⟨seg.take k.toNat, seg.drop k.toNat, (List.take_append_drop ..).symm, ?_, ?_⟩
  · rw [List.length_take]; omega
  · intro G
    obtain ⟨g1, g2⟩ := g G
    constructor
    · intro x hx
      rw [List.mem_take_iff_getElem] at hx
      obtain ⟨i, hi, rfl⟩ := hx
      have := g1 i (by omega) (by omega)
      rwa [at'_eq (x := seg[i]) (by simp)] at this
    · intro x hx
      rw [List.mem_drop_iff_getElem] at hx
      obtain ⟨i, hi, rfl⟩ := hx
      have := g2 ((k.toNat + i : Nat) : Int) (by omega) (by omega)
      rwa [at'_eq (x := seg[k.toNat + i]) (by
        rw [Int.toNat_natCast, List.getElem?_eq_getElem])] at this

/-- `gallopEnd` when the border is known to lie in `(lastofs, ofs]`. -/
theorem gallopEnd_spec (h : Host σ ε) (lt : ε → ε → Bool) (probe : Int → M σ ε (Option Bool)) (p : Int → Bool)
    (n l o : Int) (hp : ∀ i, 0 ≤ i → i < n → Probe h lt probe p i)
    (mono : Good h lt → ∀ i j, 0 ≤ i → i ≤ j → j < n → p i = true → p j = true)
    (h1 : -1 ≤ l) (h2 : l < o) (h3 : o ≤ n)
    (hl : 0 ≤ l → Good h lt → p l = false) (ho : o < n → Good h lt → p o = true) (s : St σ ε) :
    Ok (gallopEnd probe n l o) s (fun r s' => Calm s s' ∧ Ends h s r s' ∧
        ∀ k, r = some k → 0 ≤ k ∧ k ≤ n ∧
          (Good h lt → (∀ i, 0 ≤ i → i < k → p i = false) ∧ (∀ i, k ≤ i → i < n → p i = true))) := by
  unfold gallopEnd
  rw [ok_bind, ok_check]
  refine ⟨by simp [h1, h2, h3], ?_⟩
  refine bisect_spec h lt probe p 0 n hp mono _ (l + 1) o s (by omega) (by omega) h3 (Nat.le_refl _) ?_ ?_
  · intro G i hi hil
    cases hpi : p i with
    | false => rfl
    | true =>
      have := mono G i l hi (by omega) (by omega) hpi
      rw [hl (by omega) G] at this
      cases this
  · intro G i hi hin
    exact mono G o i (by omega) hi hin (ho (by omega) G)

theorem sorted_mono {lt : ε → ε → Bool} {seg : List ε} {t : ε → Bool} (hs : SortedBy lt seg)
    (ht : ∀ x y, lt y x = false → t x = true → t y = true) :
    ∀ i j, 0 ≤ i → i ≤ j → j < (seg.length : Int) → at' seg t i = true → at' seg t j = true := by
  intro i j hi hij hj hp
  have hi' : i.toNat < seg.length := by omega
  have hj' : j.toNat < seg.length := by omega
  rw [at'_eq (List.getElem?_eq_getElem hi')] at hp
  rw [at'_eq (List.getElem?_eq_getElem hj')]
  rcases Int.lt_or_eq_of_le hij with hlt | rfl
  · exact ht _ _ ((List.pairwise_iff_getElem.1 hs) i.toNat j.toNat hi' hj' (by omega)) hp
  · exact hp

theorem gallopRight_spec (h : Host σ ε) (lt : ε → ε → Bool) (key : ε) (a P seg S : List ε) (base n hint : Int)
    (ha : a = P ++ (seg ++ S)) (hb : base = P.length) (hn : n = seg.length) (h0 : 0 ≤ hint) (h1 : hint < n)
    (hmax : n ≤ 2 ^ 60) (hs : Good h lt → SortedBy lt seg) (s : St σ ε) :
    Ok (gallopRight h key a base n hint) s (Found h lt seg (fun x => lt key x) s) := by
  subst ha hb hn
  have mono : Good h lt → ∀ i j, 0 ≤ i → i ≤ j → j < (seg.length : Int) →
      at' seg (fun x => lt key x) i = true → at' seg (fun x => lt key x) j = true := fun G =>
    sorted_mono (hs G) (fun x y h1 h2 => G.sw.lt_le h2 h1)
  have hprobe := fun i hi hi2 => probe_lt h lt key P seg S id i hi hi2 (fun m => (P.length : Int) + m) rfl
  have hg := seg_get (P := P) (S := S) h0 h1
  unfold gallopRight
  simp only [ok_bind, ok_check, ok_rd]
  refine ⟨by simp [h0, h1]; omega, hg.1, _, hg.2, ?_⟩
  refine ok_islt h lt _ _ s _ (fun b s1 c e g => ?_) (fun s1 c e _ => ?_)
  · have hq : Good h lt → at' seg (fun x => lt key x) hint = b := fun G => by
      rw [at'_eq (List.getElem?_eq_getElem (by omega)), g G]
    cases b with
    | true =>
      simp only [ok_bind]
      have hp := fun i (h2 : 0 < i) (h3 : i < hint + 1) => probe_lt h lt key P seg S (fun o => hint - o) i
        (by omega) (by omega) (fun o => (P.length : Int) + hint - o) (by omega)
      refine (scan_spec h lt _ _ (hint + 1) (by omega) hp _ 0 1 s1 (by omega) (by omega) (by omega) (by omega)
        (fun G => by simpa using hq G)).mono ?_
      rintro r s2 ⟨c2, e2, g2⟩
      match r, g2, e2 with
      | none, _, e2 =>
        simp only [ok_pure]
        exact ⟨c.trans c2, e2, by simp⟩
      | some (l, o), g2, e2 =>
        obtain ⟨l0, lm, lo, ql, qo⟩ := g2 l o rfl
        simp only
        refine (gallopEnd_spec h lt _ _ seg.length _ _ hprobe mono ?_ ?_ ?_ ?_ ?_ s2).mono ?_
        · unfold clip; split <;> omega
        · unfold clip; split <;> omega
        · omega
        · unfold clip; split
          · intro h; omega
          · intro h G
            rcases Int.lt_or_eq_of_le (show o ≤ hint + 1 by omega) with h' | h'
            · exact qo h' G
            · subst h'; omega
        · intro _ G
          exact ql G
        · rintro r s3 ⟨c3, e3, g3⟩
          exact found_of (c.trans c2) (Eq.trans e2 e) c3 e3 g3
    | false =>
      simp only [ok_bind]
      have hp := fun i (h2 : 0 < i) (h3 : i < (seg.length : Int) - hint) =>
        probe_nlt h lt key P seg S (fun o => hint + o) i
        (by omega) (by omega) (fun o => (P.length : Int) + hint + o) (by omega)
      refine (scan_spec h lt _ _ (seg.length - hint) (by omega) hp _ 0 1 s1 (by omega) (by omega) (by omega) (by omega)
        (fun G => by simpa using hq G)).mono ?_
      rintro r s2 ⟨c2, e2, g2⟩
      match r, g2, e2 with
      | none, _, e2 =>
        simp only [ok_pure]
        exact ⟨c.trans c2, e2, by simp⟩
      | some (l, o), g2, e2 =>
        obtain ⟨l0, lm, lo, ql, qo⟩ := g2 l o rfl
        simp only
        refine (gallopEnd_spec h lt _ _ seg.length _ _ hprobe mono ?_ ?_ ?_ ?_ ?_ s2).mono ?_
        · omega
        · unfold clip; split <;> omega
        · unfold clip; split <;> omega
        · intro _ G
          have := ql G
          rw [Int.add_comm]
          simpa using this
        · unfold clip; split
          · intro h; omega
          · intro h G
            have := qo (by omega) G
            rw [Int.add_comm]
            simpa using this
        · rintro r s3 ⟨c3, e3, g3⟩
          exact found_of (c.trans c2) (Eq.trans e2 e) c3 e3 g3
  · simp only [ok_pure]
    exact ⟨c, e, by simp⟩

theorem gallopLeft_spec (h : Host σ ε) (lt : ε → ε → Bool) (key : ε) (a P seg S : List ε) (base n hint : Int)
    (ha : a = P ++ (seg ++ S)) (hb : base = P.length) (hn : n = seg.length) (h0 : 0 ≤ hint) (h1 : hint < n)
    (hmax : n ≤ 2 ^ 60) (hs : Good h lt → SortedBy lt seg) (s : St σ ε) :
    Ok (gallopLeft h key a base n hint) s (Found h lt seg (fun x => !lt x key) s) := by
  subst ha hb hn
  have mono : Good h lt → ∀ i j, 0 ≤ i → i ≤ j → j < (seg.length : Int) →
      at' seg (fun x => !lt x key) i = true → at' seg (fun x => !lt x key) j = true := fun G =>
    sorted_mono (hs G) (fun x y h1 h2 => by
      simp only [Bool.not_eq_true'] at h2 ⊢
      exact G.sw.negTrans y x key h1 h2)
  have hprobe := fun i hi hi2 => probe_ngt h lt key P seg S id i hi hi2 (fun m => (P.length : Int) + m) rfl
  have hg := seg_get (P := P) (S := S) h0 h1
  unfold gallopLeft
  simp only [ok_bind, ok_check, ok_rd]
  refine ⟨by simp [h0, h1]; omega, hg.1, _, hg.2, ?_⟩
  refine ok_islt h lt _ _ s _ (fun b s1 c e g => ?_) (fun s1 c e _ => ?_)
  · have hq : Good h lt → at' seg (fun x => !lt x key) hint = !b := fun G => by
      rw [at'_eq (List.getElem?_eq_getElem (by omega)), g G]
    cases b with
    | true =>
      simp only [ok_bind]
      have hp := fun i (h2 : 0 < i) (h3 : i < (seg.length : Int) - hint) =>
        probe_gt h lt key P seg S (fun o => hint + o) i
        (by omega) (by omega) (fun o => (P.length : Int) + hint + o) (by omega)
      refine (scan_spec h lt _ _ (seg.length - hint) (by omega) hp _ 0 1 s1 (by omega) (by omega) (by omega) (by omega)
        (fun G => by simpa using hq G)).mono ?_
      rintro r s2 ⟨c2, e2, g2⟩
      match r, g2, e2 with
      | none, _, e2 =>
        simp only [ok_pure]
        exact ⟨c.trans c2, e2, by simp⟩
      | some (l, o), g2, e2 =>
        obtain ⟨l0, lm, lo, ql, qo⟩ := g2 l o rfl
        simp only
        refine (gallopEnd_spec h lt _ _ seg.length _ _ hprobe mono ?_ ?_ ?_ ?_ ?_ s2).mono ?_
        · omega
        · unfold clip; split <;> omega
        · unfold clip; split <;> omega
        · intro _ G
          have := ql G
          rw [Int.add_comm]
          simpa using this
        · unfold clip; split
          · intro h; omega
          · intro h G
            have := qo (by omega) G
            rw [Int.add_comm]
            simpa using this
        · rintro r s3 ⟨c3, e3, g3⟩
          exact found_of (c.trans c2) (Eq.trans e2 e) c3 e3 g3
    | false =>
      simp only [ok_bind]
      have hp := fun i (h2 : 0 < i) (h3 : i < hint + 1) => probe_ngt h lt key P seg S (fun o => hint - o) i
        (by omega) (by omega) (fun o => (P.length : Int) + hint - o) (by omega)
      refine (scan_spec h lt _ _ (hint + 1) (by omega) hp _ 0 1 s1 (by omega) (by omega) (by omega) (by omega)
        (fun G => by simpa using hq G)).mono ?_
      rintro r s2 ⟨c2, e2, g2⟩
      match r, g2, e2 with
      | none, _, e2 =>
        simp only [ok_pure]
        exact ⟨c.trans c2, e2, by simp⟩
      | some (l, o), g2, e2 =>
        obtain ⟨l0, lm, lo, ql, qo⟩ := g2 l o rfl
        simp only
        refine (gallopEnd_spec h lt _ _ seg.length _ _ hprobe mono ?_ ?_ ?_ ?_ ?_ s2).mono ?_
        · unfold clip; split <;> omega
        · unfold clip; split <;> omega
        · omega
        · unfold clip; split
          · intro h; omega
          · intro h G
            rcases Int.lt_or_eq_of_le (show o ≤ hint + 1 by omega) with h' | h'
            · exact qo h' G
            · subst h'; omega
        · intro _ G
          exact ql G
        · rintro r s3 ⟨c3, e3, g3⟩
          exact found_of (c.trans c2) (Eq.trans e2 e) c3 e3 g3
  · simp only [ok_pure]
    exact ⟨c, e, by simp⟩

end Verif.CPySort
