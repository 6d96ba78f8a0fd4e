import Verif.Model.GfxSort
import Verif.Lemmas.CPySortLo

/-!
# `mergeLo` of `gfx::timsort`
-/

namespace Verif.Gfx

open Verif.Spec CPySort

variable {σ ε α : Type}

theorem ok_toTmp (src n : Int) (s : St σ ε) (Q : List ε → St σ ε → Prop) :
    Ok (toTmp src n) s Q ↔ (0 ≤ n ∧ 0 ≤ src ∧ src + n ≤ s.mem.length) ∧
      Q ((s.mem.drop src.toNat).take n.toNat) s := by
  by_cases h : 0 ≤ n ∧ 0 ≤ src ∧ src + n ≤ s.mem.length
  · rw [ok_of_ok (m := toTmp src n) (by unfold toTmp; rw [if_pos h])]
    simp [h]
  · simp only [h, false_and, iff_false]
    exact ok_of_error (m := toTmp src n) (s := s) (by unfold toTmp; rw [if_neg h]) Q

theorem ok_dec (mg : Int) (s : St σ ε) (Q : Int → St σ ε → Prop)
    (hq : ∀ a, Q (mg - 1) { s with alloced := a }) : Ok (dec mg) s Q := by
  unfold dec note
  rw [ok_bind, ok_modify, ok_pure]
  exact hq _

theorem ok_bump (mg : Int) (s : St σ ε) (Q : Int → St σ ε → Prop)
    (hq : ∀ a m, Q m { s with alloced := a }) : Ok (bump mg) s Q := by
  unfold bump note
  simp only
  rw [ok_bind, ok_modify, ok_pure]
  exact hq _ _

theorem loGallop_spec (h : Host σ ε) (lt : ε → ε → Bool) (P R O t : List ε) :
    ∀ (f : Nat) (v : Vars) (mg : Int) (n : Nat) (s : St σ ε), LoIn h lt P R O t s n v s → n ≤ f → n ≤ 2 ^ 60 →
      Ok (loGallop h t f v mg) s (fun r s' =>
        match r with
        | (some e, v', _) => LoOut h lt P R O t s e v' s'
        | (none, v', _) => LoIn h lt P R O t s (n - 1) v' s') := by
  intro f
  induction f with
  | zero => rintro v mg n s ⟨D, A, B, _, _, _, _, _, _, hn⟩ hf; omega
  | succ f ih =>
    rintro v mg n s ⟨D, A, B, m, inv, _, _, hA, hB, hn⟩ hf hmax
    match B, hB, m, inv, hn with
    | b :: B, hB, m, inv, hn =>
      unfold loGallop
      rw [ok_bind, ok_check]
      refine ⟨by simp [m.na, m.nb]; omega, ?_⟩
      rw [ok_bind, ok_rdm]
      refine ⟨m.headB.1, b, m.headB.2, ?_⟩
      rw [ok_bind]
      obtain ⟨Gp, T, hmem, hG, hT, hsa⟩ := m.ex
      simp only [List.length_cons] at hn
      refine (gallopRight_spec h lt b t T A [] _ _ 0 ?_ hsa m.na (by omega) ?_ ?_ ?_ _).mono ?_
      · simpa using hT
      · rw [m.na]; omega
      · rw [m.na]; omega
      · exact fun G => (sortedBy_append.1 (inv.sa G)).2.1
      · rintro r s1 ⟨c, e, g⟩
        match r, g, e with
        | none, _, e =>
          simp only [ok_pure]
          exact ⟨_, _, _, by rw [c.mem]; exact m, inv, c.pending, e⟩
        | some k, g, e =>
          obtain ⟨X, Y, rfl, hk, hXY⟩ := g k rfl
          simp only
          rw [ok_join]
          have m1 : LoMem P R t D (X ++ Y) (b :: B) v s1.mem := by rw [c.mem]; exact m
          have inv1 : LoInv h lt O (D ++ X) Y (b :: B) := LoInv.takeA inv (by
            intro G x hx y hy
            have h1 : lt b x = false := by simpa using (hXY G).1 x hx
            have h2 := (sortedBy_append.1 (inv.sb G)).2.1
            rw [sortedBy_cons] at h2
            rcases List.mem_cons.1 hy with rfl | hy
            · exact h1
            · exact G.sw.negTrans y b x (h2.1 y hy) h1)
          refine (ok_storeA m1 hk).mono ?_
          rintro _ s2 ⟨mem2, rfl, m2⟩
          generalize D ++ X = D2 at m2 inv1
          have hna : v.na - k = Y.length := m2.na
          have hlA : v.na = X.length + Y.length := by have := m.na; simpa using this
          simp only [List.length_append] at hA hn
          split
          · rename_i h1
            rw [ok_pure]
            simp only at h1 ⊢
            split
            · exact ⟨_, _, _, m2, inv1, c.pending, e, by omega, by simp⟩
            · exact ⟨_, _, _, m2, inv1, c.pending, e, Or.inl (List.eq_nil_of_length_eq_zero (by omega))⟩
          · rename_i h1
            rw [ok_bind]
            refine (loGallopB_spec h lt P R O t _ n _ D2 Y B b m2 inv1 (by omega) ?_ (by omega) (by omega)).mono ?_
            · intro G a ha
              simpa using (hXY G).2 a ha
            · rintro ⟨_ | ex, v3, bc⟩ s3 hr
              · have hr' : LoIn h lt P R O t s3 (n - 1) v3 s3 := by
                  obtain ⟨D3, A3, B3, x1, x2, x3, x4, x5⟩ := hr
                  exact ⟨D3, A3, B3, x1, x2, rfl, rfl, x5⟩
                have hp : s3.pending = s.pending ∧ s3.err = s.err := by
                  obtain ⟨D3, A3, B3, x1, x2, x3, x4, x5⟩ := hr
                  exact ⟨x3.trans c.pending, x4.trans e⟩
                simp only
                rw [ok_bind]
                refine ok_dec _ _ _ (fun al => ?_)
                have hr4 : LoIn h lt P R O t { s3 with alloced := al } (n - 1) v3 { s3 with alloced := al } := hr'
                split
                · refine (ih v3 (mg - 1) (n - 1) _ hr4 (by omega) (by omega)).mono ?_
                  rintro ⟨_ | e', v', _⟩ s4 hr4
                  · exact LoIn.from hr4 hp.1 hp.2 (by omega)
                  · exact LoOut.from hr4 hp.1 hp.2
                · rw [ok_pure]
                  exact hr4.from hp.1 hp.2 (Nat.le_refl _)
              · simp only [ok_pure]
                exact LoOut.from hr c.pending e

theorem loOuter_spec (h : Host σ ε) (lt : ε → ε → Bool) (P R O t : List ε) :
    ∀ (f : Nat) (v : Vars) (mg : Int) (n : Nat) (s : St σ ε), LoIn h lt P R O t s n v s → n ≤ f → n ≤ 2 ^ 60 →
      Ok (loOuter h t f v mg) s (fun r s' => LoOut h lt P R O t s r.1 r.2.1 s') := by
  intro f
  induction f with
  | zero => rintro v mg n s ⟨D, A, B, _, _, _, _, _, _, hn⟩ hf; omega
  | succ f ih =>
    intro v mg n s hin hf hmax
    have key : ∀ (v : Vars) (s : St σ ε), LoIn h lt P R O t s n v s →
        ∃ n', n' ≤ n ∧ n' ≤ (v.na + v.nb).toNat + 1 ∧ LoIn h lt P R O t s n' v s := by
      rintro v s ⟨D, A, B, m, inv, a, b, c, d, e⟩
      refine ⟨A.length + B.length + 1, by omega, ?_, D, A, B, m, inv, a, b, c, d, by omega⟩
      rw [m.na, m.nb]; omega
    have reset : ∀ (n : Nat) (v : Vars) (s s' : St σ ε), LoIn h lt P R O t s n v s' →
        LoIn h lt P R O t s' n v s' ∧ s'.pending = s.pending ∧ s'.err = s.err := by
      rintro n v s s' ⟨D, A, B, m, inv, a, b, c⟩
      exact ⟨⟨D, A, B, m, inv, rfl, rfl, c⟩, a, b⟩
    obtain ⟨n1, hn1, hf1, hin1⟩ := key v s hin
    unfold loOuter
    rw [ok_bind]
    refine (loSimple_spec h lt P R O t mg _ v 0 0 n1 s hin1 hf1).mono ?_
    rintro ⟨_ | ex, v1⟩ s1 hr
    · obtain ⟨hr, hp, he⟩ := reset _ _ _ _ hr
      obtain ⟨n2, hn2, hf2, hin2⟩ := key v1 s1 (hr.from rfl rfl (by omega))
      simp only
      rw [ok_bind]
      refine (loGallop_spec h lt P R O t _ v1 mg n2 s1 hin2 hf2 (by omega)).mono ?_
      rintro ⟨_ | ex, v2, mg2⟩ s2 hr2
      · obtain ⟨hr2, hp2, he2⟩ := reset _ _ _ _ hr2
        simp only
        rw [ok_bind]
        refine ok_bump _ _ _ (fun al mg3 => ?_)
        have hin3 : LoIn h lt P R O t { s2 with alloced := al } (n - 1) v2 { s2 with alloced := al } := by
          obtain ⟨D, A, B, m, inv, a, b, c, d, e⟩ := hr2
          exact ⟨D, A, B, m, inv, rfl, rfl, c, d, by omega⟩
        refine (ih v2 mg3 (n - 1) _ hin3 (by omega) (by omega)).mono ?_
        intro r s3 hr3
        exact LoOut.from hr3 (hp2.trans hp) (he2.trans he)
      · simp only [ok_pure]
        exact LoOut.from hr2 hp he
    · simp only [ok_pure]
      exact hr

/-- What the epilogue makes of the interrupted state. -/
theorem loEpilogue_spec (h : Host σ ε) (lt : ε → ε → Bool) (nr : ∀ s, ¬ Raised h s) (P R O t : List ε) (s0 : St σ ε)
    (e : Exit) (v : Vars) (s : St σ ε) (o : LoOut h lt P R O t s0 e v s) :
    Ok (loEpilogue t v) s (fun r s' => ∃ W, Merged h lt P O R s0 r s' W) := by
  obtain ⟨D, A, B, m, inv, hp, x⟩ := o
  have herr : s.err = s0.err := by
    cases e with
    | fail => exact absurd x (nr s)
    | succeed => exact x.1
    | copy => exact x.1
  unfold loEpilogue
  split
  · rename_i h1
    have hA : A.length = 1 := by have := m.na; omega
    match A, hA with
    | [a], _ =>
      have mB : LoMem P R t D [a] (B ++ []) v s.mem := by simpa using m
      have hmv : Ok (move v.dest v.sb v.nb) s (fun _ s2 => ∃ mem2, s2 = { s with mem := mem2 } ∧
          LoMem P R t (D ++ B) [a] [] { v with dest := v.dest + v.nb, sb := v.sb + v.nb, nb := v.nb - v.nb } mem2) := by
        have hmv := ok_moveB mB m.nb
        by_cases hz : v.nb = 0
        · have hB : B = [] := List.eq_nil_of_length_eq_zero (by have := m.nb; omega)
          subst hB
          obtain ⟨Gp, T, hmem, hG, hT, hsa⟩ := m.ex
          have hl : s.mem.length = P.length + (D.length + (Gp.length + R.length)) := by rw [hmem]; simp
          have hd := m.dest
          have hs := m.sb
          simp only [List.length_singleton] at hs
          rw [ok_move]
          refine ⟨⟨by omega, by omega, by omega, by omega, by omega⟩, s.mem, ?_, ?_⟩
          · rw [hz]
            simp
          · rw [show ({ v with dest := v.dest + v.nb, sb := v.sb + v.nb, nb := v.nb - v.nb } : Vars) = v by
              rw [hz]; simp only [Int.add_zero, Int.sub_zero]; conv => rhs; rw [show v = ⟨v.dest, v.sa, v.na, v.sb, v.nb⟩ from rfl, hz]]
            simpa using m
        · rw [if_pos hz] at hmv
          exact hmv
      rw [ok_bind]
      refine hmv.mono ?_
      rintro _ s2 ⟨mem2, rfl, m2⟩
      rw [← bind_assoc, ok_bind]
      refine ok_wrA (s := { s with mem := mem2 }) m2 _ (fun mem3 m3 => ?_)
      rw [ok_pure]
      obtain ⟨Gp, T, hm, hG, _⟩ := m3.ex
      have : Gp = [] := List.eq_nil_of_length_eq_zero (by simpa using hG)
      subst this
      have hdom : Good h lt → ∀ x ∈ B, ∀ y ∈ [a], lt x y = true := by
        intro G x hx y hy
        rw [List.mem_singleton.1 hy]
        exact inv.dom G a rfl x hx
      have inv2 : LoInv h lt O (D ++ B) [a] [] := LoInv.takeB (by simpa using inv) hdom
      refine ⟨D ++ B ++ [a], hp, ?_, ?_, herr, ?_, ?_⟩
      · simp only; rw [hm]; simp
      · simpa using inv2.perm
      · intro _ G; simpa using inv2.order G
      · intro _ G; simpa using inv2.sa G
  · rename_i h1
    have hAB : A = [] ∨ B = [] := by
      cases e with
      | fail => exact absurd x (nr s)
      | succeed => exact x.2
      | copy => exact absurd (by rw [m.na, x.2.1]; rfl) h1
    have m0 : LoMem P R t D (A ++ []) B v s.mem := by simpa using m
    have hst : Ok (store t v.dest v.sa v.na) s (fun _ s2 => ∃ mem2, s2 = { s with mem := mem2 } ∧
        LoMem P R t (D ++ A) [] B { v with dest := v.dest + v.na, sa := v.sa + v.na, na := v.na - v.na } mem2) := by
      have hst := ok_storeA m0 m.na
      by_cases hz : v.na = 0
      · have hA : A = [] := List.eq_nil_of_length_eq_zero (by have := m.na; omega)
        subst hA
        obtain ⟨Gp, T, hmem, hG, hT, hsa⟩ := m.ex
        have hl : s.mem.length = P.length + (D.length + (Gp.length + (B.length + R.length))) := by rw [hmem]; simp
        have htl : t.length = T.length := by rw [hT]; simp
        have hd := m.dest
        rw [ok_store]
        refine ⟨⟨by omega, by omega, by omega, by omega, by omega⟩, s.mem, ?_, ?_⟩
        · rw [hz]
          simp
        · rw [show ({ v with dest := v.dest + v.na, sa := v.sa + v.na, na := v.na - v.na } : Vars) = v by
            rw [hz]; simp only [Int.add_zero, Int.sub_zero]; conv => rhs; rw [show v = ⟨v.dest, v.sa, v.na, v.sb, v.nb⟩ from rfl, hz]]
          simpa using m
      · rw [if_pos hz] at hst
        exact hst
    rw [ok_bind]
    refine hst.mono ?_
    rintro _ s2 ⟨mem2, rfl, m2⟩
    rw [ok_pure]
    refine ⟨D ++ (A ++ B), hp, ?_, inv.perm, herr, fun _ => inv.order, fun _ G => ?_⟩
    · obtain ⟨Gp, T, hm, hG, _⟩ := m2.ex
      have : Gp = [] := List.eq_nil_of_length_eq_zero (by simpa using hG)
      subst this
      simp only
      rw [hm]; simp
    · rcases hAB with rfl | rfl
      · simpa using inv.sb G
      · simpa using inv.sa G

theorem rotateLeft_spec (P R B : List ε) (a : ε) (first last : Int) (s : St σ ε)
    (hmem : s.mem = P ++ (a :: (B ++ R))) (hf : first = P.length) (hl : last = (P.length + 1 + B.length : Nat)) :
    Ok (rotateLeft first last) s (fun _ s' => s' = { s with mem := P ++ ((B ++ [a]) ++ R) }) := by
  have hlen : s.mem.length = P.length + (1 + (B.length + R.length)) := by rw [hmem]; simp; omega
  unfold rotateLeft
  rw [ok_bind, ok_rdm]
  refine ⟨by omega, a, by rw [hmem, hf]; simp, ?_⟩
  rw [ok_bind, ok_move]
  refine ⟨⟨by omega, by omega, by omega, by omega, by omega⟩, ?_⟩
  have e1 : s.mem.take first.toNat = P := by rw [hmem, hf, Int.toNat_natCast, List.take_left]
  have e2 : (s.mem.drop (first + 1).toNat).take (last - (first + 1)).toNat = B := by
    rw [hmem, show (first + 1).toNat = (P ++ [a]).length by simp; omega,
      show P ++ (a :: (B ++ R)) = (P ++ [a]) ++ (B ++ R) by simp, List.drop_left,
      show (last - (first + 1)).toNat = B.length by omega, List.take_left]
  obtain ⟨X, z, hX⟩ : ∃ X z, a :: B = X ++ [z] := by
    rcases List.eq_nil_or_concat (a :: B) with h | ⟨L, x, h⟩
    · cases h
    · exact ⟨L, x, by simpa using h⟩
  have hXl : X.length = B.length := by
    have := congrArg List.length hX
    simpa using this.symm
  have e3 : s.mem.drop (first + (last - (first + 1))).toNat = z :: R := by
    rw [hmem, show P ++ (a :: (B ++ R)) = (P ++ X) ++ (z :: R) by
      rw [show a :: (B ++ R) = (a :: B) ++ R from rfl, hX]; simp,
      show (first + (last - (first + 1))).toNat = (P ++ X).length by simp; omega, List.drop_left]
  rw [ok_wr]
  simp only [e1, e2, e3]
  refine ⟨⟨by omega, by simp; omega⟩, ?_⟩
  rw [show (last - 1).toNat = (P ++ B).length by simp; omega, List.set_append_right _ _ (Nat.le_refl _)]
  simp

theorem rotateRight_spec (P R A : List ε) (b : ε) (first last : Int) (s : St σ ε)
    (hmem : s.mem = P ++ (A ++ (b :: R))) (hf : first = P.length) (hl : last = (P.length + A.length + 1 : Nat)) :
    Ok (rotateRight first last) s (fun _ s' => s' = { s with mem := P ++ ((b :: A) ++ R) }) := by
  have hlen : s.mem.length = P.length + (A.length + (1 + R.length)) := by rw [hmem]; simp; omega
  unfold rotateRight
  rw [ok_bind, ok_rdm]
  refine ⟨by omega, b, ?_, ?_⟩
  · rw [hmem, show (last - 1).toNat = (P ++ A).length by simp; omega, ← List.append_assoc]
    simp
  rw [ok_bind, ok_move]
  refine ⟨⟨by omega, by omega, by omega, by omega, by omega⟩, ?_⟩
  obtain ⟨y, Y, hY⟩ : ∃ y Y, A ++ [b] = y :: Y := by
    cases h : A ++ [b] with
    | nil => simp at h
    | cons y Y => exact ⟨y, Y, rfl⟩
  have e1 : s.mem.take (first + 1).toNat = P ++ [y] := by
    rw [hmem, show P ++ (A ++ (b :: R)) = (P ++ [y]) ++ (Y ++ R) by
      rw [show A ++ (b :: R) = (A ++ [b]) ++ R by simp, hY]; simp,
      show (first + 1).toNat = (P ++ [y]).length by simp; omega, List.take_left]
  have e2 : (s.mem.drop first.toNat).take (last - 1 - first).toNat = A := by
    rw [hmem, hf, Int.toNat_natCast, List.drop_left, show (last - 1 - (P.length : Int)).toNat = A.length by omega,
      List.take_left]
  have e3 : s.mem.drop (first + 1 + (last - 1 - first)).toNat = R := by
    rw [hmem, show P ++ (A ++ (b :: R)) = (P ++ (A ++ [b])) ++ R by simp,
      show (first + 1 + (last - 1 - first)).toNat = (P ++ (A ++ [b])).length by simp; omega, List.drop_left]
  rw [ok_wr]
  simp only [e1, e2, e3]
  refine ⟨⟨by omega, by simp; omega⟩, ?_⟩
  rw [show first.toNat = P.length by omega, List.append_assoc, List.append_assoc, List.set_append_right _ _ (Nat.le_refl _)]
  simp

/-- One of the runs has a single element: what the rotations leave is the merge. -/
theorem rotated (h : Host σ ε) (lt : ε → ε → Bool) (P A B R : List ε) (s s' : St σ ε)
    (hs : s' = { s with mem := P ++ ((B ++ A) ++ R) })
    (sa : Good h lt → SortedBy lt A) (sb : Good h lt → SortedBy lt B)
    (all : Good h lt → ∀ b ∈ B, ∀ a ∈ A, lt b a = true) :
    ∃ W, Merged h lt P (A ++ B) R s (some ()) s' W := by
  subst hs
  refine ⟨B ++ A, rfl, rfl, List.perm_append_comm, rfl, fun _ G => ?_, fun _ G => ?_⟩
  · have inv : LoInv h lt (A ++ B) [] A (B ++ []) := ⟨by simp, by simpa using sa, by simpa using sb,
      fun _ => by simpa using SameOrder.refl _, fun G x hx b hb => all G b (by simpa using hb) x (List.mem_of_getLast? hx)⟩
    have := (LoInv.takeB inv (fun G => all G)).order G
    simpa using this
  · rw [sortedBy_append]
    exact ⟨sb G, sa G, fun b hb a ha => G.sw.asymm (all G b hb a ha)⟩

theorem mergeLo_spec (h : Host σ ε) (lt : ε → ε → Bool) (nr : ∀ s, ¬ Raised h s) (P A B R : List ε)
    (ssa na ssb nb : Int) (s : St σ ε)
    (hmem : s.mem = P ++ (A ++ (B ++ R))) (hssa : ssa = P.length) (hna : na = A.length)
    (hssb : ssb = (P.length + A.length : Nat)) (hnb : nb = B.length) (hA : A ≠ []) (hB : B ≠ [])
    (hmax2 : A.length + B.length ≤ 2 ^ 60)
    (sa : Good h lt → SortedBy lt A) (sb : Good h lt → SortedBy lt B)
    (dom : Good h lt → ∀ x, A.getLast? = some x → ∀ b ∈ B, lt b x = true)
    (first : Good h lt → ∀ b, B.head? = some b → ∀ a ∈ A, lt b a = true) :
    Ok (mergeLo h ssa na ssb nb) s (fun r s' => ∃ W, Merged h lt P (A ++ B) R s r s' W) := by
  have hAl : 0 < A.length := List.length_pos_iff.2 hA
  have hBl : 0 < B.length := List.length_pos_iff.2 hB
  unfold mergeLo
  rw [ok_bind, ok_check]
  refine ⟨by simp [hna, hnb, hssa, hssb]; omega, ?_⟩
  split
  · rename_i h1
    match A, hA, hAl with
    | [a], _, _ =>
      rw [ok_bind]
      refine (rotateLeft_spec P R B a ssa (ssb + nb) s (by rw [hmem]; simp) hssa (by
        rw [hssb, hnb]; simp only [List.length_singleton]; omega)).mono ?_
      intro _ s' hs
      rw [ok_pure]
      exact rotated h lt P [a] B R s s' (by simpa using hs) sa sb (fun G b hb x hx => by
        rw [List.mem_singleton.1 hx]; exact dom G a rfl b hb)
    | _ :: _ :: _, _, _ => simp only [List.length_cons] at hna; omega
  · split
    · rename_i h1 h2
      match B, hB, hBl with
      | [b], _, _ =>
        rw [ok_bind]
        refine (rotateRight_spec P R A b ssa (ssb + nb) s (by rw [hmem]; simp) hssa (by
          rw [hssb, hnb]; simp only [List.length_singleton]; omega)).mono ?_
        intro _ s' hs
        rw [ok_pure]
        exact rotated h lt P A [b] R s s' (by simpa using hs) sa sb (fun G x hx a ha => by
          rw [List.mem_singleton.1 hx]; exact first G b rfl a ha)
      | _ :: _ :: _, _, _ => simp only [List.length_cons] at hnb; omega
    · rename_i h1 h2
      match B, hB, hBl with
      | b :: B, _, _ =>
        rw [ok_bind, ok_toTmp]
        have hlen : s.mem.length = P.length + (A.length + (B.length + 1 + R.length)) := by
          rw [hmem]; simp; omega
        refine ⟨⟨by omega, by omega, by omega⟩, ?_⟩
        have ht : (s.mem.drop ssa.toNat).take na.toNat = A := by
          rw [hmem, hssa, hna, Int.toNat_natCast, Int.toNat_natCast, List.drop_left, List.take_left]
        rw [ht]
        have m0 : LoMem P R A [] A (b :: B) { dest := ssa, sa := 0, na := na, sb := ssb, nb := nb } s.mem :=
          ⟨⟨A, [], by rw [hmem]; simp, rfl, rfl, rfl⟩, hna, hnb, by simp [hssa], by simp [hssb]⟩
        have inv0 : LoInv h lt (A ++ b :: B) [] A (b :: B) :=
          ⟨List.Perm.refl _, sa, sb, fun _ => SameOrder.refl _, dom⟩
        have inv1 : LoInv h lt (A ++ b :: B) [b] A B := by
          have := LoInv.takeB (X := [b]) (B := B) inv0 (by
            intro G x hx
            rw [List.mem_singleton.1 hx]
            exact first G b rfl)
          simpa using this
        rw [← bind_assoc, ok_bind]
        refine ok_wrB m0 _ (fun mem2 m1 => ?_)
        simp only [List.nil_append] at m1
        have hnb1 : nb - 1 = B.length := by rw [hnb]; simp
        simp only [List.length_cons] at hmax2
        rw [ok_bind, ok_get, ok_bind]
        refine (loOuter_spec h lt P R (A ++ b :: B) A _ _ _ (A.length + B.length + 1) _
          ⟨[b], A, B, m1, inv1, rfl, rfl, by omega, by omega, by omega⟩ ?_ ?_).mono ?_
        · simp only; rw [hna, hnb1]; omega
        · omega
        · rintro ⟨e, v, mg⟩ s3 ho
          rw [ok_bind, ok_modify]
          refine loEpilogue_spec h lt nr P R _ A s e _ _ ?_
          obtain ⟨D, A', B', m, inv, hp, x⟩ := ho
          refine ⟨D, A', B', m, inv, hp, ?_⟩
          cases e with
          | fail => exact absurd x (nr s3)
          | succeed => exact x
          | copy => exact x

end Verif.Gfx
