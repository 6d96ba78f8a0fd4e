import Verif.Lemmas.KeyCompare
import Verif.Lemmas.SortSpec

/-!
# Sorting with the comparison chosen by the check
-/

namespace Verif.KeyCompare

open Verif.Key Verif.CPySort Verif.Spec Verif.Spec.ByKey

variable {σ ε κ ν : Type}

theorem equivBy_congr {lt : ε → ε → Bool} (sw : StrictWeak lt) {x y : ε} (h : equivBy lt x y = true) (z : ε) :
    equivBy lt x z = equivBy lt y z := by
  simp only [equivBy, Bool.and_eq_true, Bool.not_eq_true'] at h
  obtain ⟨h1, h2⟩ := h
  have a : lt x z = lt y z := by
    cases hz : lt x z with
    | true =>
      cases hz' : lt y z with
      | true => rfl
      | false => rw [sw.negTrans x y z h1 hz'] at hz; cases hz
    | false => exact (sw.negTrans y x z h2 hz).symm
  have b : lt z x = lt z y := by
    cases hz : lt z x with
    | true =>
      cases hz' : lt z y with
      | true => rfl
      | false => rw [sw.negTrans z y x hz' h2] at hz; cases hz
    | false => exact (sw.negTrans z x y hz h1).symm
  simp only [equivBy, a, b]

theorem strictWeak_dir {lt : ε → ε → Bool} (sw : StrictWeak lt) (rev : Bool) : StrictWeak (dir lt rev) := by
  cases rev with
  | false => exact sw
  | true =>
    exact ⟨sw.irrefl, fun x y z h h' => sw.trans z y x h' h, fun x y z h h' => sw.negTrans z y x h' h⟩

/-- A sort of tagged elements is a sort of the elements. -/
theorem stable_untag {lt : ε → ε → Bool} (sw : StrictWeak lt) (l : List ε) (out : List { x : ε // x ∈ l })
    (h : StableSort (fun x y => lt x.1 y.1) l.attach out) : StableSort lt l (out.map (·.1)) := by
  obtain ⟨p, s, o⟩ := h
  refine ⟨?_, ?_, ?_⟩
  · have := p.map (·.1)
    rwa [List.attach_map_subtype_val] at this
  · unfold SortedBy
    rw [List.pairwise_map]
    exact s
  · intro x
    have e : (out.map (·.1)).filter (equivBy lt x) = (l.attach.map (·.1)).filter (equivBy lt x) := by
      rw [List.filter_map, List.filter_map]
      congr 1
      by_cases hx : ∃ y, ∃ hy : y ∈ l, equivBy lt x y = true
      · obtain ⟨y, hy, hxy⟩ := hx
        have := o ⟨y, hy⟩
        have c : (equivBy lt x ∘ fun z : { z : ε // z ∈ l } => z.1) =
            equivBy (fun a b : { z : ε // z ∈ l } => lt a.1 b.1) ⟨y, hy⟩ := by
          funext z
          exact equivBy_congr sw hxy z.1
        rw [c]
        exact this
      · have no (m : List { z : ε // z ∈ l }) : m.filter (equivBy lt x ∘ fun z => z.1) = [] := by
          rw [List.filter_eq_nil_iff]
          intro z _ hz
          exact hx ⟨z.1, z.2, hz⟩
        rw [no, no]
    rwa [List.attach_map_subtype_val] at e

/-- The merge sort with the chosen comparison. -/
theorem sortFrom_spec (W : World σ) (malloc : σ → Nat → Bool × σ) (keyed : Bool) (keyOf : ε → Obj) (s : σ)
    (slots : List ε) (rev : Bool) (hmax : slots.length < 2 ^ 60) :
    ∃ ok out s' err, sortFrom W malloc keyed keyOf s slots rev = .ok (ok, out, (s', false), err) ∧ out.Perm slots ∧
      (ok = false → ∃ e, err = some e ∧
        ((∃ t, ∃ x ∈ slots, ∃ y ∈ slots, (choose W s (slots.map keyOf)).run W t (keyOf x) (keyOf y) = (.raised e, s')) ∨
          (e = .memoryError ∧ ∃ t n, malloc t n = (false, s')))) ∧
      (ok = true → err = none ∧ ∀ lt : ε → ε → Bool, StrictWeak lt →
        (∀ t, ∀ x ∈ slots, ∀ y ∈ slots, ((choose W s (slots.map keyOf)).run W t (keyOf x) (keyOf y)).1 = .ans (lt x y)) →
        StableSort (dir lt rev) slots out) := by
  unfold sortFrom
  generalize hc : choose W s (slots.map keyOf) = c
  have hdef : ∀ t, ∀ x ∈ slots, ∀ y ∈ slots, (c.run W t (keyOf x) (keyOf y)).1 ≠ .undef := by
    intro t x hx y hy
    rw [← hc]
    exact chosen_defined W s _ _ _ (List.mem_map_of_mem hx) (List.mem_map_of_mem hy) t
  generalize hh : host W c malloc keyed (fun x : { x : ε // x ∈ slots } => keyOf x.1) = h
  have spec := fun lt => sortSlots_spec h lt (s, false) slots.attach rev (by rw [List.length_attach]; exact hmax)
  obtain ⟨ok, out, ⟨s', u⟩, err, e, p, hr, hk⟩ := spec (fun _ _ => false)
  have hst : Stable h (fun a b => b.env.2 = a.env.2) := by
    subst hh
    refine ⟨fun a b h _ => by rw [h], fun a b c h h' => h'.trans h, ?_, ?_, fun _ => rfl, ?_, ?_⟩
    · intro st x y b e he
      simp only [host, ask] at he
      have := hdef st.env.1 x.1 x.2 y.1 y.2
      revert he this
      rcases c.run W st.env.1 (keyOf x.1) (keyOf y.1) with ⟨r, t⟩
      cases r <;> simp <;> intros <;> subst_vars <;> rfl
    · intro st x y b e he
      simp only [host, ask] at he
      have := hdef st.env.1 x.1 x.2 y.1 y.2
      revert he this
      rcases c.run W st.env.1 (keyOf x.1) (keyOf y.1) with ⟨r, t⟩
      cases r <;> simp <;> intros <;> subst_vars <;> rfl
    · intro st n e he
      simp only [host, Prod.mk.injEq] at he
      rw [← he.2]
    · intro st n e he
      simp only [host, Prod.mk.injEq] at he
      rw [← he.2]
  obtain ⟨a, b, hab, ha, _, hb, _⟩ := sortSlots_stable hst _ _ _ _ _ _ _ e
  have hu : u = false := by
    rw [ha, hb] at hab
    exact hab
  subst hu
  refine ⟨ok, out.map (·.1), s', err, ?_, ?_, ?_, ?_⟩
  · show (sortSlots h (s, false) slots.attach rev >>= _) = _
    rw [e]
    rfl
  · have := p.map (·.1)
    rwa [List.attach_map_subtype_val] at this
  · intro ho
    obtain ⟨x, he, hx⟩ := hr ho
    refine ⟨x, he, ?_⟩
    subst hh
    rcases hx with ⟨t, x, y, hx⟩ | ⟨hm, t, n, hx⟩
    · left
      refine ⟨t.1, x.1, x.2, y.1, y.2, ?_⟩
      simp only [host, ask] at hx
      have := hdef t.1 x.1 x.2 y.1 y.2
      revert hx this
      rcases c.run W t.1 (keyOf x.1) (keyOf y.1) with ⟨r, t'⟩
      cases r <;> simp <;> intros <;> subst_vars <;> simp
    · right
      refine ⟨hm, t.1, n, ?_⟩
      simp only [host, Prod.mk.injEq] at hx
      exact Prod.ext hx.1 hx.2.1
  · intro ho
    refine ⟨(hk ho).1, fun lt sw ans => ?_⟩
    obtain ⟨ok2, out2, env2, err2, e2, _, _, hk2⟩ := spec (fun x y => lt x.1 y.1)
    rw [e] at e2
    cases e2
    have hs := (hk2 ho).2 ⟨⟨fun x => sw.irrefl _, fun x y z => sw.trans _ _ _, fun x y z => sw.negTrans _ _ _⟩, by
      intro t x y
      subst hh
      simp only [host, ask]
      have := ans t.1 x.1 x.2 y.1 y.2
      revert this
      rcases c.run W t.1 (keyOf x.1) (keyOf y.1) with ⟨r, t'⟩
      intro this
      simp only at this
      subst this
      rfl⟩
    refine stable_untag (strictWeak_dir sw rev) slots out ?_
    have : (fun x y : { x : ε // x ∈ slots } => dir lt rev x.1 y.1) = dir (fun x y => lt x.1 y.1) rev := by
      cases rev <;> rfl
    rw [this]
    exact hs

/-- A sort that ends without exception has seen only comparisons that answered and allocations that were granted. -/
theorem sortFrom_smooth (W : World σ) (malloc : σ → Nat → Bool × σ) (keyed : Bool) (keyOf : ε → Obj) (s s' : σ)
    (slots out : List ε) (rev ok u : Bool) (Q : σ → σ → Prop) (hrefl : ∀ a, Q a a) (htrans : ∀ a b c, Q a b → Q b c → Q a c)
    (hless : ∀ t, ∀ x ∈ slots, ∀ y ∈ slots, ∀ b t',
      (choose W s (slots.map keyOf)).run W t (keyOf x) (keyOf y) = (.ans b, t') → Q t t')
    (hroom : ∀ t n t', malloc t n = (true, t') → Q t t')
    (hr : sortFrom W malloc keyed keyOf s slots rev = .ok (ok, out, (s', u), none)) : Q s s' := by
  unfold sortFrom at hr
  generalize hc : choose W s (slots.map keyOf) = c at hr hless
  have hdef : ∀ t, ∀ x ∈ slots, ∀ y ∈ slots, (c.run W t (keyOf x) (keyOf y)).1 ≠ .undef := by
    intro t x hx y hy
    rw [← hc]
    exact chosen_defined W s _ _ _ (List.mem_map_of_mem hx) (List.mem_map_of_mem hy) t
  generalize hh : host W c malloc keyed (fun x : { x : ε // x ∈ slots } => keyOf x.1) = h at hr
  have hst : Stable h (fun a b => b.err = none → a.err = none ∧ Q a.env.1 b.env.1) := by
    subst hh
    refine ⟨fun a b h h' => ?_, fun a b c h h' hn => ?_, ?_, ?_, (fun _ hn => nomatch hn), ?_, ?_⟩
    · intro hn
      rw [h]
      exact ⟨h' ▸ hn, hrefl _⟩
    · obtain ⟨hb, q2⟩ := h' hn
      obtain ⟨ha, q1⟩ := h hb
      exact ⟨ha, htrans _ _ _ q1 q2⟩
    · intro st x y b e he hn
      refine ⟨hn, ?_⟩
      simp only [host, ask] at he
      have := hdef st.env.1 x.1 x.2 y.1 y.2
      have hl := hless st.env.1 x.1 x.2 y.1 y.2
      revert he this hl
      rcases c.run W st.env.1 (keyOf x.1) (keyOf y.1) with ⟨r, t⟩
      cases r with
      | ans b' =>
        intro he _ hl
        simp only [Prod.mk.injEq] at he
        rw [← he.2]
        exact hl b' t rfl
      | raised e' => intro he; simp at he
      | undef => intro _ h; exact absurd rfl h
    · intro st x y z e _ hn
      cases hn
    · intro st n e he hn
      refine ⟨hn, ?_⟩
      simp only [host, Prod.mk.injEq] at he
      rw [← he.2]
      exact hroom _ n _ (Prod.ext he.1 rfl)
    · intro st n e _ hn
      cases hn
  simp only [bind, Except.bind] at hr
  split at hr
  · cases hr
  · rename_i v hv
    obtain ⟨a, b, c, d⟩ := v
    simp only [pure, Except.pure, Except.ok.injEq, Prod.mk.injEq] at hr
    obtain ⟨_, _, hcs, hd⟩ := hr
    subst hd
    obtain ⟨p, q, hpq, hp, _, hq, hqe⟩ := sortSlots_stable hst _ _ _ _ _ _ _ hv
    have := (hpq hqe).2
    rw [hp, hq, hcs] at this
    exact this

end Verif.KeyCompare
