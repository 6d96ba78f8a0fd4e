import Verif.Spec.GuardObj

/-! Helper lemmas: reference counts. -/

namespace Verif.Heap

/-- The counts of the mortal objects change by `δ`. -/
def Adj (h h' : Heap) (δ : Obj → Int) : Prop :=
  h'.imm = h.imm ∧ ∀ o, h.imm o = false → (h'.rc o : Int) = h.rc o + δ o

theorem Adj.refl (h : Heap) : Adj h h (fun _ => 0) := ⟨rfl, fun o _ => by simp⟩

theorem Adj.trans {h h' h'' : Heap} {δ ε : Obj → Int} (a : Adj h h' δ) (b : Adj h' h'' ε) :
    Adj h h'' (fun o => δ o + ε o) := by
  refine ⟨b.1.trans a.1, fun o ho => ?_⟩
  have h1 := a.2 o ho
  have h2 := b.2 o (by rw [a.1]; exact ho)
  dsimp only
  omega

theorem Adj.congr {h h' : Heap} {δ ε : Obj → Int} (a : Adj h h' δ) (e : ∀ o, δ o = ε o) : Adj h h' ε :=
  ⟨a.1, fun o ho => by rw [← e]; exact a.2 o ho⟩

theorem incref_ok {h : Heap} {o : Obj} (hl : h.imm o = true ∨ 0 < h.rc o) :
    ∃ h', h.incref o = .ok h' ∧ Adj h h' (fun x => ([o].count x : Nat)) := by
  unfold incref
  by_cases hi : h.imm o = true
  · rw [if_pos hi]
    refine ⟨h, rfl, rfl, fun x hx => ?_⟩
    have : o ≠ x := by rintro rfl; simp [hi] at hx
    simp [this]
  · rw [if_neg hi, if_neg (by rcases hl with h1 | h1 <;> first | exact absurd h1 hi | omega)]
    refine ⟨_, rfl, rfl, fun x hx => ?_⟩
    by_cases e : x = o
    · subst e; simp [set]
    · simp [set, e, Ne.symm e]

theorem decref_ok {h : Heap} {o : Obj} (hl : h.imm o = true ∨ 0 < h.rc o) :
    ∃ h', h.decref o = .ok h' ∧ Adj h h' (fun x => -([o].count x : Nat)) := by
  unfold decref
  by_cases hi : h.imm o = true
  · rw [if_pos hi]
    refine ⟨h, rfl, rfl, fun x hx => ?_⟩
    have : o ≠ x := by rintro rfl; simp [hi] at hx
    simp [this]
  · have hp : 0 < h.rc o := by rcases hl with h1 | h1; exact absurd h1 hi; exact h1
    rw [if_neg hi, if_neg (by omega)]
    refine ⟨_, rfl, rfl, fun x hx => ?_⟩
    by_cases e : x = o
    · subst e; simp [set]; omega
    · simp [set, e, Ne.symm e]

theorem gain_adj (h : Heap) (o : Obj) : Adj h (h.gain o) (fun x => ([o].count x : Nat)) := by
  unfold gain
  by_cases hi : h.imm o = true
  · rw [if_pos hi]
    refine ⟨rfl, fun x hx => ?_⟩
    have : o ≠ x := by rintro rfl; simp [hi] at hx
    simp [this]
  · rw [if_neg hi]
    refine ⟨rfl, fun x hx => ?_⟩
    by_cases e : x = o
    · subst e; simp [set]
    · simp [set, e, Ne.symm e]

theorem count_cons_int (o x : Obj) (l : List Obj) :
    ((o :: l).count x : Int) = ([o].count x : Nat) + (l.count x : Nat) := by
  rw [show o :: l = [o] ++ l from rfl, List.count_append]; simp

theorem increfs_ok {h : Heap} {xs : List Obj} (hl : ∀ o ∈ xs, h.imm o = true ∨ 0 < h.rc o) :
    ∃ h', h.increfs xs = .ok h' ∧ Adj h h' (fun x => (xs.count x : Nat)) := by
  induction xs generalizing h with
  | nil => exact ⟨h, rfl, (Adj.refl h).congr (by simp)⟩
  | cons o os ih =>
    obtain ⟨h1, e1, a1⟩ := incref_ok (hl o (by simp))
    obtain ⟨h2, e2, a2⟩ := ih (h := h1) (fun x hx => by
      rcases hl x (by simp [hx]) with h3 | h3
      · left; rw [a1.1]; exact h3
      · by_cases hi : h.imm x = true
        · left; rw [a1.1]; exact hi
        · right; have := a1.2 x (by simpa using hi); dsimp only at this; omega)
    refine ⟨h2, by simp [increfs, e1, e2], (a1.trans a2).congr fun x => ?_⟩
    exact (count_cons_int o x os).symm

theorem decrefs_ok {h : Heap} {xs : List Obj} (hl : ∀ o, h.imm o = false → xs.count o ≤ h.rc o) :
    ∃ h', h.decrefs xs = .ok h' ∧ Adj h h' (fun x => -(xs.count x : Nat)) := by
  induction xs generalizing h with
  | nil => exact ⟨h, rfl, (Adj.refl h).congr (by simp)⟩
  | cons o os ih =>
    obtain ⟨h1, e1, a1⟩ := decref_ok (h := h) (o := o) (by
      by_cases hi : h.imm o = true
      · exact .inl hi
      · right; have := hl o (by simpa using hi); simp at this; omega)
    obtain ⟨h2, e2, a2⟩ := ih (h := h1) (fun x hx => by
      rw [a1.1] at hx
      have h3 := a1.2 x hx
      dsimp only at h3
      have h4 := hl x hx
      have h5 := count_cons_int o x os
      omega)
    refine ⟨h2, by simp [decrefs, e1, e2], (a1.trans a2).congr fun x => ?_⟩
    have := count_cons_int o x os; omega

end Verif.Heap

namespace Verif

theorem Covered.live {ext : Obj → Nat} {h : Heap} {l : List Obj} (c : Covered ext h l) {o : Obj} (ho : o ∈ l) :
    h.imm o = true ∨ 0 < h.rc o := by
  by_cases hi : h.imm o = true
  · exact .inl hi
  · right
    have := c o (by simpa using hi)
    have : 0 < l.count o := List.count_pos_iff.2 ho
    omega

theorem Covered.live_ext {ext : Obj → Nat} {h : Heap} {l : List Obj} (c : Covered ext h l) {o : Obj}
    (ho : h.imm o = true ∨ 0 < ext o) : h.imm o = true ∨ 0 < h.rc o := by
  by_cases hi : h.imm o = true
  · exact .inl hi
  · right
    have := c o (by simpa using hi)
    rcases ho with h1 | h1
    · exact absurd h1 hi
    · omega

end Verif
