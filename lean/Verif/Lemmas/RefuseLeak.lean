import Verif.Lemmas.RefuseEnough

/-! Helper lemmas: what a refusal leaves behind. -/

namespace Verif.Refuse

open Verif.Spec Verif.Heap

theorem leaked_of_adj {h h' : Heap} {lost : List Obj} {δ : Obj → Int} (a : Adj h h' δ)
    (e : ∀ o, h.imm o = false → δ o = (lost.count o : Nat)) : Leaked lost h h' :=
  ⟨a.1, fun o ho => by have := a.2 o ho; rw [e o ho] at this; omega⟩

/-- Releasing `vs` when `vs` and `lost` have been counted. -/
theorem release {h h1 : Heap} {vs lost : List Obj} {δ : Obj → Int} (a : Adj h h1 δ)
    (e : ∀ o, δ o = (vs.count o : Nat) + (lost.count o : Nat)) :
    ∃ h', h1.decrefs vs = .ok h' ∧ Leaked lost h h' := by
  obtain ⟨h', e1, a1⟩ := decrefs_ok (h := h1) (xs := vs) (fun o ho => by
    have h3 := a.2 o (by rw [← a.1]; exact ho)
    rw [e] at h3
    omega)
  refine ⟨h', e1, leaked_of_adj (a.trans a1) (fun o _ => ?_)⟩
  rw [e]; omega

namespace Arr

variable {m : Machine}

theorem initPush_leak {h : Heap} (xs : List Obj) :
    ∀ (s s' : St), Adj h s.1.heap (fun o => (s.1.vec.count o : Nat)) → initPush m xs s = (s', false) →
      ∃ pre o post, xs = pre ++ o :: post ∧ s'.1.vec = s.1.vec ++ pre ∧
        Adj h s'.1.heap (fun x => (s'.1.vec.count x : Nat) + ([o].count x : Nat)) := by
  induction xs with
  | nil => intro s s' _ e; simp [initPush] at e
  | cons o os ih =>
    intro s s' a e
    rw [initPush] at e
    rcases e1 : makeRoom m 1 s.1.vec.length s.2 with ⟨r', b⟩
    rw [e1] at e
    cases b
    · dsimp only at e
      injection e with e2 _
      subst e2
      exact ⟨[], o, os, rfl, by simp, a.trans (gain_adj _ _)⟩
    · dsimp only at e
      obtain ⟨pre, x, post, h1, h2, h3⟩ := ih _ _ ((a.trans (gain_adj _ _)).congr (fun y => by simp)) e
      exact ⟨o :: pre, x, post, by simp [h1], by simp [h2], h3⟩

/-- The loop of `*=` ends with a refusal, whatever the machine. -/
theorem imulInner_refused (j : Nat) (v : List Obj) (h : Heap) (r : Room) (hj : j < v.length)
    (hl : ∀ o ∈ v, h.imm o = true ∨ 0 < h.rc o) :
    ∃ fuel0, ∀ fuel, fuel0 ≤ fuel → ∃ s', imulInner m fuel j v h r = some (.ok (s', false)) ∧
      v <+: s'.1.vec ∧ (v.length < r.cap → v.length < s'.1.vec.length) := by
  generalize hd : max r.cap maxSize - v.length = d
  induction d using Nat.strongRecOn generalizing j v h r with
  | _ d ih =>
    have hv : v[j]? = some v[j] := List.getElem?_eq_getElem hj
    rcases e1 : makeRoom m 1 v.length r with ⟨r', b⟩
    cases b
    · refine ⟨1, fun fuel hf => ⟨(⟨v, h⟩, r'), ?_, List.prefix_refl _, fun hc => ?_⟩⟩
      · obtain ⟨fuel, rfl⟩ : ∃ k, fuel = k + 1 := ⟨fuel - 1, by omega⟩
        rw [imulInner, hv]
        dsimp only
        rw [e1]
      · unfold makeRoom at e1
        rw [if_pos (by omega)] at e1
        cases e1
    · obtain ⟨h1, e2, a2⟩ := incref_ok (hl _ (List.getElem_mem hj))
      have hcap : max r'.cap maxSize ≤ max r.cap maxSize ∧ v.length < max r.cap maxSize := by
        unfold makeRoom at e1
        generalize maxSize = M at e1 ⊢
        split at e1
        · injection e1 with e1 _; subst e1; omega
        · split at e1
          · cases e1
          · unfold getBlock at e1
            split at e1
            · injection e1 with e1 _; subst e1; dsimp only; omega
            · cases e1
      obtain ⟨f0, hf0⟩ := ih (max r'.cap maxSize - (v ++ [v[j]]).length) (by simp; omega) (j + 1) (v ++ [v[j]]) h1 r'
        (by simp; omega) (fun o ho => by
          have ho : o ∈ v := by
            rcases List.mem_append.1 ho with h2 | h2
            · exact h2
            · rw [List.mem_singleton.1 h2]; exact List.getElem_mem hj
          by_cases hi : h.imm o = true
          · left; rw [a2.1]; exact hi
          · right
            have h3 := a2.2 o (by simpa using hi)
            dsimp only at h3
            rcases hl o ho with h4 | h4
            · exact absurd h4 hi
            · omega) rfl
      refine ⟨f0 + 1, fun fuel hf => ?_⟩
      obtain ⟨fuel, rfl⟩ : ∃ k, fuel = k + 1 := ⟨fuel - 1, by omega⟩
      obtain ⟨s', h5, h6, h7⟩ := hf0 fuel (by omega)
      refine ⟨s', ?_, (List.prefix_append _ _).trans h6, fun _ => ?_⟩
      · rw [imulInner, hv]
        dsimp only
        rw [e1]
        dsimp only
        rw [e2]
        exact h5
      · have := h6.length_le
        simp at this
        omega

theorem imul_refused (s : St) (n : Int) (hn : 2 ≤ n) (hv : s.1.vec ≠ []) (hfit : s.1.vec.length * n.toNat < 2 ^ 64)
    (hl : ∀ o ∈ s.1.vec, s.1.heap.imm o = true ∨ 0 < s.1.heap.rc o) :
    ∃ fuel0, ∀ fuel, fuel0 ≤ fuel → ∃ s', imul m fuel s n = .exc s' .runtimeError ∧ s.1.vec <+: s'.1.vec ∧
      ((reserve m (s.1.vec.length * n.toNat) s.2).2 = true → s.1.vec.length < s'.1.vec.length) := by
  unfold imul
  dsimp only
  have h0 : ¬ n < 0 := by omega
  have h00 : ¬ n = 0 := by omega
  simp only [if_neg h0, if_neg h00]
  have hp : product s.1.vec.length n = s.1.vec.length * n.toNat := by
    unfold product
    exact Nat.mod_eq_of_lt hfit
  rw [hp]
  have hlen : 0 < s.1.vec.length := List.length_pos_iff.2 hv
  have hbig : s.1.vec.length < s.1.vec.length * n.toNat := by
    have : 2 ≤ n.toNat := by omega
    calc s.1.vec.length < s.1.vec.length * 2 := by omega
      _ ≤ s.1.vec.length * n.toNat := Nat.mul_le_mul_left _ this
  clear hfit hp
  generalize s.1.vec.length * n.toNat = p at hbig ⊢
  rcases e : reserve m p s.2 with ⟨r, b⟩
  cases b
  · exact ⟨0, fun fuel _ => ⟨(s.1, r), rfl, List.prefix_refl _, fun h => by cases h⟩⟩
  · have hc : s.1.vec.length < r.cap := by
      unfold reserve at e
      split at e
      · cases e
      · split at e
        · injection e with e _; subst e; omega
        · unfold getBlock at e
          split at e
          · injection e with e _; subst e; exact hbig
          · cases e
    obtain ⟨f0, hf0⟩ := imulInner_refused (m := m) 0 s.1.vec s.1.heap r hlen hl
    refine ⟨f0, fun fuel hf => ?_⟩
    obtain ⟨s', h1, h2, h3⟩ := hf0 fuel hf
    refine ⟨s', ?_, h2, fun _ => h3 hc⟩
    obtain ⟨k, hk⟩ : ∃ k, n.toNat - 1 = k + 1 := ⟨n.toNat - 2, by omega⟩
    dsimp only
    rw [hk, imulOuter]
    dsimp only
    rw [h1]

end Arr

namespace Lnk

open ObjLinked (vec)

variable {m : Machine}

theorem vec_push (l : LState Obj) (h : Heap) (o : Obj) (h' : Heap) :
    vec ⟨l.push o, h⟩ = vec ⟨l, h'⟩ ++ [o] := by
  simp [vec, LState.vals, LState.push]

theorem initPush_leak {h : Heap} (xs : List Obj) :
    ∀ (s s' : St), Adj h s.1.heap (fun o => ((vec s.1).count o : Nat)) → initPush m xs s = (s', false) →
      ∃ pre o post, xs = pre ++ o :: post ∧ vec s'.1 = vec s.1 ++ pre ∧
        Adj h s'.1.heap (fun x => ((vec s'.1).count x : Nat) + ([o].count x : Nat)) := by
  induction xs with
  | nil => intro s s' _ e; simp [initPush] at e
  | cons o os ih =>
    intro s s' a e
    rw [initPush] at e
    rcases e1 : node m 0 s.2 with ⟨r', b⟩
    rw [e1] at e
    cases b
    · dsimp only at e
      injection e with e2 _
      subst e2
      exact ⟨[], o, os, rfl, by simp [vec], a.trans (gain_adj _ _)⟩
    · dsimp only at e
      obtain ⟨pre, x, post, h1, h2, h3⟩ := ih _ _ ((a.trans (gain_adj _ _)).congr (fun y => by
        rw [vec_push _ _ _ s.1.heap]; simp)) e
      refine ⟨o :: pre, x, post, by simp [h1], ?_, h3⟩
      rw [h2, vec_push _ _ _ s.1.heap]; simp

theorem initCounted_leak {h : Heap} (xs : List Obj) :
    ∀ (s s' : St), Adj h s.1.heap (fun o => ((vec s.1).count o : Nat)) → initCounted m xs s = .ok (s', false) →
      ∃ pre o post, xs = pre ++ o :: post ∧ vec s'.1 = vec s.1 ++ pre ∧
        Adj h s'.1.heap (fun x => ((vec s'.1).count x : Nat) + ([o].count x : Nat)) := by
  induction xs with
  | nil => intro s s' _ e; simp [initCounted] at e
  | cons o os ih =>
    intro s s' a e
    rw [initCounted] at e
    split at e
    · cases e
    · rename_i h1 e0
      have a1 := (incref_inv e0).2.1
      rcases e1 : node m 0 s.2 with ⟨r', b⟩
      rw [e1] at e
      cases b
      · dsimp only at e
        injection e with e2
        injection e2 with e2 _
        subst e2
        exact ⟨[], o, os, rfl, by simp [vec], a.trans a1⟩
      · dsimp only at e
        obtain ⟨pre, x, post, h1, h2, h3⟩ := ih _ _ ((a.trans a1).congr (fun y => by
          rw [vec_push _ _ _ s.1.heap]; simp)) e
        refine ⟨o :: pre, x, post, by simp [h1], ?_, h3⟩
        rw [h2, vec_push _ _ _ s.1.heap]; simp

/-- The loops of `*=`, however far they come. -/
theorem imulInner_grows (n : Nat) :
    ∀ (j : Nat) (s s' : St) (b : Bool), imulInner m n j s = .ok (s', b) → vec s.1 <+: vec s'.1 := by
  induction n with
  | zero => intro j s s' b e; cases e; exact List.prefix_refl _
  | succ n ih =>
    intro j s s' b e
    rw [imulInner] at e
    split at e
    · cases e
    · rename_i o _
      rcases e1 : node m 0 s.2 with ⟨t, c⟩
      rw [e1] at e
      cases c
      · cases e; exact List.prefix_refl _
      · dsimp only at e
        split at e
        · cases e
        · have := ih _ _ _ _ e
          rw [vec_push _ _ _ s.1.heap] at this
          exact (List.prefix_append _ _).trans this

end Lnk
end Verif.Refuse
