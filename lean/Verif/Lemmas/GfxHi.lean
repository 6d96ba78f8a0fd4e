import Verif.Lemmas.GfxLo
import Verif.Lemmas.CPySortHi

/-!
# `mergeHi` of `gfx::timsort`
-/

namespace Verif.Gfx

open Verif.Spec CPySort

variable {σ ε α : Type}

theorem hiGallop_spec (h : Host σ ε) (lt : ε → ε → Bool) (P R O t : List ε) (basea : Int) (hbase : basea = P.length) :
    ∀ (f : Nat) (v : Vars) (mg : Int) (n : Nat) (s : St σ ε), HiIn h lt P R O t s n v s → n ≤ f → n ≤ 2 ^ 60 →
      Ok (hiGallop h t basea f v mg) s (fun r s' =>
        match r with
        | (some e, v', _) => HiOut h lt P R O t s e v' s'
        | (none, v', _) => HiIn h lt P R O t s (n - 1) v' s') := by
  intro f
  induction f with
  | zero => rintro v mg n s ⟨D, A, B, _, _, _, _, _, _, hn⟩ hf; omega
  | succ f ih =>
    rintro v mg n s ⟨A, B, D, m, inv, _, _, hA, hB, hn⟩ hf hmax
    obtain ⟨B, b, rfl⟩ := snoc_of_pos (l := B) (by omega)
    unfold hiGallop
    rw [ok_bind, ok_check]
    simp only [List.length_append, List.length_singleton] at hB hn
    refine ⟨by simp [m.na, m.nb]; omega, ?_⟩
    rw [ok_bind, ok_rd]
    refine ⟨m.lastB.1, b, m.lastB.2, ?_⟩
    rw [ok_bind, ok_get, ok_bind]
    obtain ⟨Gp, T, hmem, hG, hT⟩ := m.ex
    have hlA := m.na
    refine (gallopRight_spec h lt b _ P A _ _ _ (v.na - 1) hmem hbase m.na (by omega) (by omega) (by omega)
      (fun G => (sortedBy_append.1 (inv.sa G)).1) _).mono ?_
    rintro r s1 ⟨c, e, g⟩
    match r, g, e with
    | none, _, e =>
      simp only [ok_pure]
      exact ⟨_, _, _, by rw [c.mem]; exact m, inv, c.pending, e⟩
    | some k, g, e =>
      obtain ⟨X, Y, rfl, hk, hXY⟩ := g k rfl
      have hkY : v.na - k = Y.length := by rw [hlA, hk, List.length_append]; omega
      generalize hk2 : v.na - k = k2 at *
      simp only [hk2]
      rw [ok_join]
      have m1 : HiMem P R t (X ++ Y) (B ++ [b]) D v s1.mem := by rw [c.mem]; exact m
      have inv1 : HiInv h lt O X (B ++ [b]) (Y ++ D) := HiInv.takeA inv (by
        intro G x hx y hy
        have h1 : lt b x = true := by simpa using (hXY G).2 x hx
        have h2 := (sortedBy_append.1 (sortedBy_append.1 (inv.sb G)).1).2.2
        rcases List.mem_append.1 hy with hy | hy
        · exact G.sw.le_lt (h2 y hy b (by simp)) h1
        · rw [List.mem_singleton.1 hy]; exact h1)
      refine (ok_moveA m1 hkY).mono ?_
      rintro _ s2 ⟨mem2, rfl, m2⟩
      generalize Y ++ D = D2 at m2 inv1
      have hna : v.na - k2 = X.length := m2.na
      simp only [List.length_append] at hA hn hlA
      split
      · rename_i h1
        rw [ok_pure]
        exact ⟨_, _, _, m2, inv1, c.pending, e, Or.inl (List.eq_nil_of_length_eq_zero (by omega))⟩
      · rename_i h1
        rw [ok_bind]
        refine (hiGallopB_spec h lt P R O t _ n { s1 with mem := mem2 } X B D2 b m2 inv1 (by omega) (by omega) ?_ (by omega)
          (by omega)).mono ?_
        · intro G a ha
          simpa using (hXY G).1 a ha
        · rintro ⟨_ | ex, v3, bc⟩ s3 hr
          · have hr' : HiIn h lt P R O t s3 (n - 1) v3 s3 := by
              obtain ⟨D3, A3, B3, x1, x2, x3, x4, x5⟩ := hr
              exact ⟨D3, A3, B3, x1, x2, rfl, rfl, x5⟩
            have hp : s3.pending = s.pending ∧ s3.err = s.err := by
              obtain ⟨D3, A3, B3, x1, x2, x3, x4, x5⟩ := hr
              exact ⟨x3.trans c.pending, x4.trans e⟩
            simp only
            rw [ok_bind]
            refine ok_dec _ _ _ (fun al => ?_)
            have hr4 : HiIn h lt P R O t { s3 with alloced := al } (n - 1) v3 { s3 with alloced := al } := hr'
            split
            · refine (ih v3 (mg - 1) (n - 1) _ hr4 (by omega) (by omega)).mono ?_
              rintro ⟨_ | e', v', _⟩ s4 hr4
              · exact HiIn.from hr4 hp.1 hp.2 (by omega)
              · exact HiOut.from hr4 hp.1 hp.2
            · rw [ok_pure]
              exact hr4.from hp.1 hp.2 (Nat.le_refl _)
          · simp only [ok_pure]
            exact HiOut.from hr c.pending e

theorem hiOuter_spec (h : Host σ ε) (lt : ε → ε → Bool) (P R O t : List ε) (basea : Int) (hbase : basea = P.length) :
    ∀ (f : Nat) (v : Vars) (mg : Int) (n : Nat) (s : St σ ε), HiIn h lt P R O t s n v s → n ≤ f → n ≤ 2 ^ 60 →
      Ok (hiOuter h t basea f v mg) s (fun r s' => HiOut h lt P R O t s r.1 r.2.1 s') := by
  intro f
  induction f with
  | zero => rintro v mg n s ⟨D, A, B, _, _, _, _, _, _, hn⟩ hf; omega
  | succ f ih =>
    intro v mg n s hin hf hmax
    have key : ∀ (v : Vars) (s : St σ ε), HiIn h lt P R O t s n v s →
        ∃ n', n' ≤ n ∧ n' ≤ (v.na + v.nb).toNat + 1 ∧ HiIn h lt P R O t s n' v s := by
      rintro v s ⟨A, B, D, m, inv, a, b, c, d, e⟩
      refine ⟨A.length + B.length + 1, by omega, ?_, A, B, D, m, inv, a, b, c, d, by omega⟩
      rw [m.na, m.nb]; omega
    have reset : ∀ (n : Nat) (v : Vars) (s s' : St σ ε), HiIn h lt P R O t s n v s' →
        HiIn h lt P R O t s' n v s' ∧ s'.pending = s.pending ∧ s'.err = s.err := by
      rintro n v s s' ⟨D, A, B, m, inv, a, b, c⟩
      exact ⟨⟨D, A, B, m, inv, rfl, rfl, c⟩, a, b⟩
    obtain ⟨n1, hn1, hf1, hin1⟩ := key v s hin
    unfold hiOuter
    rw [ok_bind]
    refine (hiSimple_spec h lt P R O t mg _ v 0 0 n1 s hin1 hf1).mono ?_
    rintro ⟨_ | ex, v1⟩ s1 hr
    · obtain ⟨hr, hp, he⟩ := reset _ _ _ _ hr
      obtain ⟨n2, hn2, hf2, hin2⟩ := key v1 s1 (hr.from rfl rfl (by omega))
      simp only
      rw [ok_bind]
      refine (hiGallop_spec h lt P R O t basea hbase _ v1 mg n2 s1 hin2 hf2 (by omega)).mono ?_
      rintro ⟨_ | ex, v2, mg2⟩ s2 hr2
      · obtain ⟨hr2, hp2, he2⟩ := reset _ _ _ _ hr2
        simp only
        rw [ok_bind]
        refine ok_bump _ _ _ (fun al mg3 => ?_)
        have hin3 : HiIn h lt P R O t { s2 with alloced := al } (n - 1) v2 { s2 with alloced := al } := by
          obtain ⟨D, A, B, m, inv, a, b, c, d, e⟩ := hr2
          exact ⟨D, A, B, m, inv, rfl, rfl, c, d, by omega⟩
        refine (ih v2 mg3 (n - 1) _ hin3 (by omega) (by omega)).mono ?_
        intro r s3 hr3
        exact HiOut.from hr3 (hp2.trans hp) (he2.trans he)
      · simp only [ok_pure]
        exact HiOut.from hr2 hp he
    · simp only [ok_pure]
      exact hr

/-- What the epilogue makes of the interrupted state. -/
theorem hiEpilogue_spec (h : Host σ ε) (lt : ε → ε → Bool) (nr : ∀ s, ¬ Raised h s) (P R O t : List ε) (s0 : St σ ε)
    (e : Exit) (v : Vars) (s : St σ ε) (o : HiOut h lt P R O t s0 e v s) :
    Ok (hiEpilogue t v) s (fun r s' => ∃ W, Merged h lt P O R s0 r s' W) := by
  obtain ⟨A, B, D, m, inv, hp, x⟩ := o
  have herr : s.err = s0.err := by
    cases e with
    | fail => exact absurd x (nr s)
    | succeed => exact x.1
    | copy => exact x.1
  unfold hiEpilogue
  split
  · rename_i h1
    have hB : B.length = 1 := by have := m.nb; omega
    match B, hB with
    | [b], _ =>
      have mA : HiMem P R t ([] ++ A) [b] D v s.mem := by simpa using m
      have hmv : Ok (move (v.dest + (1 - v.na)) (v.sa + (1 - v.na)) v.na) s (fun _ s2 => ∃ mem2, s2 = { s with mem := mem2 } ∧
          HiMem P R t [] [b] (A ++ D) { v with dest := v.dest - v.na, sa := v.sa - v.na, na := v.na - v.na } mem2) := by
        have hmv := ok_moveA mA m.na
        by_cases hz : v.na = 0
        · have hA : A = [] := List.eq_nil_of_length_eq_zero (by have := m.na; omega)
          subst hA
          obtain ⟨Gp, T, hmem, hG, hT⟩ := m.ex
          have hl : s.mem.length = P.length + (Gp.length + (D.length + R.length)) := by rw [hmem]; simp
          have hd := m.dest
          have hs := m.sa
          simp only [List.length_singleton, List.length_nil] at hs hd hG
          rw [ok_move]
          refine ⟨⟨by omega, by omega, by omega, by omega, by omega⟩, s.mem, ?_, ?_⟩
          · rw [hz]
            simp
          · rw [show ({ v with dest := v.dest - v.na, sa := v.sa - v.na, na := v.na - v.na } : Vars) = v by
              rw [hz]; simp only [Int.sub_zero]; conv => rhs; rw [show v = ⟨v.dest, v.sa, v.na, v.sb, v.nb⟩ from rfl, hz]]
            simpa using m
        · rw [if_pos hz, show v.dest - v.na + 1 = v.dest + (1 - v.na) by omega,
            show v.sa - v.na + 1 = v.sa + (1 - v.na) by omega] at hmv
          exact hmv
      rw [ok_bind]
      refine hmv.mono ?_
      rintro _ s2 ⟨mem2, rfl, m2⟩
      rw [← bind_assoc, ok_bind]
      refine ok_wrHB (B := []) (s := { s with mem := mem2 }) m2 _ (fun mem3 m3 => ?_)
      rw [ok_pure]
      obtain ⟨Gp, T, hm, hG, _⟩ := m3.ex
      have : Gp = [] := List.eq_nil_of_length_eq_zero (by simpa using hG)
      subst this
      have hdom : Good h lt → ∀ x ∈ A, ∀ y ∈ [b], lt y x = true := by
        intro G x hx y hy
        rw [List.mem_singleton.1 hy]
        exact inv.dom G b rfl x hx
      have inv2 : HiInv h lt O [] [b] (A ++ D) := HiInv.takeA (by simpa using inv) hdom
      refine ⟨[b] ++ (A ++ D), hp, ?_, ?_, herr, ?_, ?_⟩
      · simp only; rw [hm]; simp
      · simpa using inv2.perm
      · intro _ G; simpa using inv2.order G
      · intro _ G; simpa using inv2.sb G
  · rename_i h1
    have hAB : A = [] ∨ B = [] := by
      cases e with
      | fail => exact absurd x (nr s)
      | succeed => exact x.2
      | copy => exact absurd (by rw [m.nb, x.2.1]; rfl) h1
    have m0 : HiMem P R t A ([] ++ B) D v s.mem := by simpa using m
    have hst : Ok (store t (v.dest - (v.nb - 1)) 0 v.nb) s (fun _ s2 => ∃ mem2, s2 = { s with mem := mem2 } ∧
        HiMem P R t A [] (B ++ D) { v with dest := v.dest - v.nb, sb := v.sb - v.nb, nb := v.nb - v.nb } mem2) := by
      have hst := ok_storeB m0 m.nb
      by_cases hz : v.nb = 0
      · have hB : B = [] := List.eq_nil_of_length_eq_zero (by have := m.nb; omega)
        subst hB
        obtain ⟨Gp, T, hmem, hG, hT⟩ := m.ex
        have hl : s.mem.length = P.length + (A.length + (Gp.length + (D.length + R.length))) := by rw [hmem]; simp
        have hd := m.dest
        simp only [List.length_nil] at hd
        rw [ok_store]
        refine ⟨⟨by omega, by omega, by omega, by omega, by omega⟩, s.mem, ?_, ?_⟩
        · rw [hz]
          simp
        · rw [show ({ v with dest := v.dest - v.nb, sb := v.sb - v.nb, nb := v.nb - v.nb } : Vars) = v by
            rw [hz]; simp only [Int.sub_zero]; conv => rhs; rw [show v = ⟨v.dest, v.sa, v.na, v.sb, v.nb⟩ from rfl, hz]]
          simpa using m
      · rw [if_pos hz, show v.dest - v.nb + 1 = v.dest - (v.nb - 1) by omega,
          show v.sb - v.nb + 1 = 0 by rw [m.nb, m.sb]; omega] at hst
        exact hst
    rw [ok_bind]
    refine hst.mono ?_
    rintro _ s2 ⟨mem2, rfl, m2⟩
    rw [ok_pure]
    refine ⟨A ++ (B ++ D), hp, ?_, inv.perm, herr, fun _ => inv.order, fun _ G => ?_⟩
    · obtain ⟨Gp, T, hm, hG, _⟩ := m2.ex
      have : Gp = [] := List.eq_nil_of_length_eq_zero (by simpa using hG)
      subst this
      simp only
      rw [hm]; simp
    · rcases hAB with rfl | rfl
      · simpa using inv.sb G
      · simpa using inv.sa G

theorem mergeHi_spec (h : Host σ ε) (lt : ε → ε → Bool) (nr : ∀ s, ¬ Raised h s) (P A B R : List ε)
    (ssa na ssb nb : Int) (s : St σ ε)
    (hmem : s.mem = P ++ (A ++ (B ++ R))) (hssa : ssa = P.length) (hna : na = A.length)
    (hssb : ssb = (P.length + A.length : Nat)) (hnb : nb = B.length) (hA : A ≠ []) (hB : B ≠ [])
    (hmax2 : A.length + B.length ≤ 2 ^ 60)
    (sa : Good h lt → SortedBy lt A) (sb : Good h lt → SortedBy lt B)
    (last : Good h lt → ∀ x, A.getLast? = some x → ∀ b ∈ B, lt b x = true)
    (dom : Good h lt → ∀ b, B.head? = some b → ∀ a ∈ A, lt b a = true) :
    Ok (mergeHi h ssa na ssb nb) s (fun r s' => ∃ W, Merged h lt P (A ++ B) R s r s' W) := by
  have hAl : 0 < A.length := List.length_pos_iff.2 hA
  have hBl : 0 < B.length := List.length_pos_iff.2 hB
  unfold mergeHi
  rw [ok_bind, ok_check]
  refine ⟨by simp [hna, hnb, hssa, hssb]; omega, ?_⟩
  split
  · rename_i h1
    match A, hA, hAl with
    | [a], _, _ =>
      rw [ok_bind]
      refine (rotateLeft_spec P R B a ssa (ssb + nb) s (by rw [hmem]; simp) hssa (by
        rw [hssb, hnb]; simp only [List.length_singleton]; omega)).mono ?_
      intro _ s' hs
      rw [ok_pure]
      exact rotated h lt P [a] B R s s' (by simpa using hs) sa sb (fun G b hb x hx => by
        rw [List.mem_singleton.1 hx]; exact last G a rfl b hb)
    | _ :: _ :: _, _, _ => simp only [List.length_cons] at hna; omega
  · split
    · rename_i h1 h2
      match B, hB, hBl with
      | [b], _, _ =>
        rw [ok_bind]
        refine (rotateRight_spec P R A b ssa (ssb + nb) s (by rw [hmem]; simp) hssa (by
          rw [hssb, hnb]; simp only [List.length_singleton]; omega)).mono ?_
        intro _ s' hs
        rw [ok_pure]
        exact rotated h lt P A [b] R s s' (by simpa using hs) sa sb (fun G x hx a ha => by
          rw [List.mem_singleton.1 hx]; exact dom G b rfl a ha)
      | _ :: _ :: _, _, _ => simp only [List.length_cons] at hnb; omega
    · rename_i h1 h2
      obtain ⟨A, a, rfl⟩ := snoc_of_pos (l := A) (by omega)
      rw [ok_bind, ok_toTmp]
      simp only [List.length_append, List.length_singleton] at *
      have hlen : s.mem.length = P.length + (A.length + 1 + (B.length + R.length)) := by
        rw [hmem]; simp; omega
      refine ⟨⟨by omega, by omega, by omega⟩, ?_⟩
      have ht : (s.mem.drop ssb.toNat).take nb.toNat = B := by
        rw [hmem, ← List.append_assoc P, show ssb.toNat = (P ++ (A ++ [a])).length by
          simp only [List.length_append, List.length_singleton]; omega, List.drop_left,
          show nb.toNat = B.length by omega, List.take_left]
      rw [ht]
      have m0 : HiMem P R B (A ++ [a]) B [] { dest := ssb + (nb - 1), sa := ssa + (na - 1), na := na, sb := nb - 1, nb := nb } s.mem :=
        ⟨⟨B, [], by rw [hmem]; simp, rfl, by simp⟩, by simp [hna], hnb, by simp [hssb, hnb]; omega, by simp [hssa, hna]; omega, by simp [hnb]⟩
      have inv0 : HiInv h lt (A ++ [a] ++ B) (A ++ [a]) B [] :=
        ⟨by simp, by simpa using sa, by simpa using sb, fun _ => by simpa using SameOrder.refl _, dom⟩
      have inv1 : HiInv h lt (A ++ [a] ++ B) A B [a] := by
        have := HiInv.takeA inv0 (by
          intro G x hx
          rw [List.mem_singleton.1 hx]
          exact last G a (by simp))
        simpa using this
      rw [← bind_assoc, ok_bind]
      refine ok_wrHA m0 _ (fun mem2 m1 => ?_)
      simp only [List.append_nil] at m1
      have m1' : HiMem P R B A B [a] { dest := ssb + (nb - 1) - 1, sa := ssa + (na - 1) - 1, na := na - 1, sb := nb - 1, nb := nb } mem2 := by
        simpa using m1
      rw [ok_bind, ok_get, ok_bind]
      refine (hiOuter_spec h lt P R (A ++ [a] ++ B) B ssa hssa _ _ _ (A.length + B.length + 1) _
        ⟨A, B, [a], m1', inv1, rfl, rfl, by omega, by omega, by omega⟩ ?_ ?_).mono ?_
      · omega
      · omega
      · rintro ⟨e, v, mg⟩ s3 ho
        rw [ok_bind, ok_modify]
        refine hiEpilogue_spec h lt nr P R _ B s e _ _ ?_
        obtain ⟨A', B', D, m, inv, hp, x⟩ := ho
        refine ⟨A', B', D, m, inv, hp, ?_⟩
        cases e with
        | fail => exact absurd x (nr s3)
        | succeed => exact x
        | copy => exact x

end Verif.Gfx
