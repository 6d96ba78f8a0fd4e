import Verif.Spec.Sort

/-!
# Lemmas about sortedness and stability
-/

namespace Verif.Spec

variable {α : Type} {lt : α → α → Bool}

theorem SameOrder.refl (l : List α) : SameOrder lt l l := fun _ => rfl

theorem SameOrder.symm {l l' : List α} (h : SameOrder lt l l') : SameOrder lt l' l := fun x => (h x).symm

theorem SameOrder.trans {a b c : List α} (h : SameOrder lt a b) (h' : SameOrder lt b c) :
    SameOrder lt a c := fun x => (h x).trans (h' x)

theorem SameOrder.append {a b c d : List α} (h : SameOrder lt a b) (h' : SameOrder lt c d) :
    SameOrder lt (a ++ c) (b ++ d) := fun x => by
  simp only [List.filter_append, h x, h' x]

theorem SameOrder.reverse {a b : List α} (h : SameOrder lt a b) : SameOrder lt a.reverse b.reverse :=
  fun x => by simp only [List.filter_reverse, h x]

/-- Blocks without equivalent elements may change places. -/
theorem SameOrder.swap (sw : StrictWeak lt) {a b : List α}
    (h : ∀ x ∈ a, ∀ y ∈ b, lt x y = true ∨ lt y x = true) : SameOrder lt (a ++ b) (b ++ a) := fun z => by
  simp only [List.filter_append]
  rcases Classical.em (∃ x ∈ a, equivBy lt z x = true) with ⟨x, hx, e⟩ | ha
  · have : b.filter (equivBy lt z) = [] := by
      rw [List.filter_eq_nil_iff]
      intro y hy ey
      simp only [equivBy, Bool.and_eq_true, Bool.not_eq_true'] at e ey
      rcases h x hx y hy with h1 | h1
      · have := sw.negTrans x z y e.2 ey.1
        rw [h1] at this; cases this
      · have := sw.negTrans y z x ey.2 e.1
        rw [h1] at this; cases this
    simp [this]
  · have : a.filter (equivBy lt z) = [] := by
      rw [List.filter_eq_nil_iff]
      intro x hx e
      exact ha ⟨x, hx, e⟩
    simp [this]

theorem StrictWeak.asymm (sw : StrictWeak lt) {x y : α} (h : lt x y = true) : lt y x = false := by
  cases h' : lt y x with
  | false => rfl
  | true =>
    have := sw.trans x y x h h'
    rw [sw.irrefl] at this; cases this

/-- `x < y ≤ z` gives `x < z`. -/
theorem StrictWeak.lt_le (sw : StrictWeak lt) {x y z : α} (h : lt x y = true) (h' : lt z y = false) :
    lt x z = true := by
  cases h2 : lt x z with
  | true => rfl
  | false =>
    have := sw.negTrans x z y h2 h'
    rw [h] at this; cases this

/-- `x ≤ y < z` gives `x < z`. -/
theorem StrictWeak.le_lt (sw : StrictWeak lt) {x y z : α} (h : lt y x = false) (h' : lt y z = true) :
    lt x z = true := by
  cases h2 : lt x z with
  | true => rfl
  | false =>
    have := sw.negTrans y x z h h2
    rw [h'] at this; cases this

theorem sortedBy_nil : SortedBy lt [] := List.Pairwise.nil

theorem sortedBy_singleton (x : α) : SortedBy lt [x] := List.pairwise_singleton _ _

theorem sortedBy_append {a b : List α} : SortedBy lt (a ++ b) ↔
    SortedBy lt a ∧ SortedBy lt b ∧ ∀ x ∈ a, ∀ y ∈ b, lt y x = false := List.pairwise_append

theorem sortedBy_cons {x : α} {b : List α} : SortedBy lt (x :: b) ↔
    (∀ y ∈ b, lt y x = false) ∧ SortedBy lt b := List.pairwise_cons

theorem sortedBy_reverse {a : List α} : SortedBy lt a.reverse ↔ SortedBy (fun x y => lt y x) a := by
  simp only [SortedBy, List.pairwise_reverse]

/-- A sorted list has one arrangement only, given the order inside the classes. -/
theorem StableSort.unique (sw : StrictWeak lt) {l a b : List α} (ha : StableSort lt l a)
    (hb : StableSort lt l b) : a = b := by
  have key : ∀ a b : List α, SortedBy lt a → SortedBy lt b → SameOrder lt a b → a.Perm b → a = b := by
    intro a
    induction a with
    | nil => intro b _ _ _ hp; simpa using hp.symm.eq_nil.symm
    | cons x a ih =>
      intro b sa sb so hp
      cases b with
      | nil => simp at hp
      | cons y b =>
        rw [sortedBy_cons] at sa sb
        have hxy : lt x y = false := by
          have : x ∈ y :: b := hp.subset (List.mem_cons_self ..)
          rcases List.mem_cons.1 this with rfl | h
          · exact sw.irrefl _
          · exact sb.1 _ h
        have hyx : lt y x = false := by
          have : y ∈ x :: a := hp.symm.subset (List.mem_cons_self ..)
          rcases List.mem_cons.1 this with rfl | h
          · exact sw.irrefl _
          · exact sa.1 _ h
        have := so x
        rw [List.filter_cons_of_pos (by simp [equivBy, sw.irrefl]),
          List.filter_cons_of_pos (by simp [equivBy, hxy, hyx])] at this
        have e : x = y := (List.cons.inj this).1
        subst e
        congr 1
        refine ih b sa.2 sb.2 (fun z => ?_) (List.Perm.cons_inv hp)
        have := so z
        by_cases hz : equivBy lt z x = true
        · rw [List.filter_cons_of_pos hz, List.filter_cons_of_pos hz] at this
          exact (List.cons.inj this).2
        · rwa [List.filter_cons_of_neg hz, List.filter_cons_of_neg hz] at this
  exact key a b ha.2.1 hb.2.1 (ha.2.2.trans hb.2.2.symm) (ha.1.trans hb.1.symm)

end Verif.Spec
