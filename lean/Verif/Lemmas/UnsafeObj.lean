import Verif.Model.UnsafeObj
import Verif.Spec.Names

/-! # Names and reference counts -/

namespace Verif.UnsafeObj

open Spec

theorem target_int {v : Int} (h : 0 < v ∧ v < 2 ^ 64) : target (.int v) = some v.toNat := by
  simp only [target]
  rw [if_pos h]

theorem target_nat {o : Nat} (h0 : 0 < o) (h1 : o < 2 ^ 64) : target (.int (o : Int)) = some o := by
  have := target_int (v := (o : Int)) (by omega)
  rw [Int.toNat_natCast] at this
  exact this

theorem target_ptr {a : Arg} {o : Nat} (h : target a = some o) : Unsafe.asVoidPtr a = .ok o ∧ o ≠ 0 := by
  cases a with
  | int v =>
    simp only [target] at h
    split at h
    · rename_i hv
      cases h
      refine ⟨?_, show (v.toNat : Nat) ≠ 0 by omega⟩
      simp only [Unsafe.asVoidPtr]
      rw [if_pos (by omega), Int.emod_eq_of_lt (by omega) hv.2]
    · cases h
  | index v => cases h
  | other => cases h

theorem live_iff {h : Heap} {o : Obj} : h.live o = true ↔ h.imm o = true ∨ 0 < h.rc o := by
  simp [Heap.live]

theorem asObject_live {h : Heap} {a : Arg} {o : Obj} (ht : target a = some o) (hl : h.imm o = true ∨ 0 < h.rc o) :
    asObject h a = .ok h (.obj o) := by
  obtain ⟨h1, h2⟩ := target_ptr ht
  have : h.live o = true := by simpa [Heap.live] using hl
  simp only [asObject, h1]
  rw [if_neg h2, if_pos this]

theorem step_asObject {h : Heap} {a : Arg} {o : Obj} (ht : target a = some o) (hl : h.imm o = true ∨ 0 < h.rc o) :
    step h (.asObject a) = .ok h (.obj o) := asObject_live ht hl

theorem incref_fields {h : Heap} {o : Obj} (hl : h.imm o = true ∨ 0 < h.rc o) :
    ∃ h', h.incref o = .ok h' ∧ h'.imm = h.imm ∧
      ∀ x, h.imm x = false → h'.rc x = h.rc x + if x = o then 1 else 0 := by
  unfold Heap.incref
  by_cases hi : h.imm o = true
  · rw [if_pos hi]
    refine ⟨h, rfl, rfl, fun x hx => ?_⟩
    rw [if_neg (by rintro rfl; rw [hi] at hx; cases hx)]
    rfl
  · rw [if_neg hi, if_neg (by have := hl.resolve_left hi; omega)]
    refine ⟨_, rfl, rfl, fun x _ => ?_⟩
    simp only [Heap.set]
    split
    · rename_i e; rw [e]
    · rfl

theorem decref_fields {h : Heap} {o : Obj} (hl : h.imm o = true ∨ 0 < h.rc o) :
    ∃ h', h.decref o = .ok h' ∧ h'.imm = h.imm ∧
      ∀ x, h.imm x = false → h'.rc x = h.rc x - if x = o then 1 else 0 := by
  unfold Heap.decref
  by_cases hi : h.imm o = true
  · rw [if_pos hi]
    refine ⟨h, rfl, rfl, fun x hx => ?_⟩
    rw [if_neg (by rintro rfl; rw [hi] at hx; cases hx)]
    rfl
  · rw [if_neg hi, if_neg (by have := hl.resolve_left hi; omega)]
    refine ⟨_, rfl, rfl, fun x _ => ?_⟩
    simp only [Heap.set]
    split
    · rename_i e; rw [e]
    · rfl

theorem careful_play {own own' : Obj → Nat} {es : List REvent} (hn : Names own es own') :
    ∀ (h : Heap) (slack : Obj → Int),
      (∀ o, h.imm o = false → (own o : Int) + slack o ≤ h.rc o) →
      (∀ k o, h.imm o = false → 0 ≤ slack o + credit o (es.take k)) →
      ∃ h', play h es = some h' ∧ h'.imm = h.imm ∧
        ∀ o, h.imm o = false → (own' o : Int) + slack o + credit o es ≤ h'.rc o := by
  induction hn with
  | nil own =>
    intro h slack hc _
    exact ⟨h, rfl, rfl, fun o ho => by have := hc o ho; simp only [credit]; omega⟩
  | @getAddress own own' o es _ _ ih =>
    intro h slack hc hk
    obtain ⟨h', e, i, r⟩ := ih h slack hc fun k x hx => by simpa [credit] using hk (k + 1) x hx
    exact ⟨h', e, i, fun x hx => by simpa [credit] using r x hx⟩
  | @refcnt own own' o es ho _ ih =>
    intro h slack hc hk
    have hl : h.imm o = true ∨ 0 < h.rc o := by
      by_cases hi : h.imm o = true
      · exact .inl hi
      · have := hc o (by simpa using hi)
        have := hk 0 o (by simpa using hi)
        simp only [List.take_zero, credit] at this
        exact .inr (by omega)
    have hl : h.live o = true := by simpa [Heap.live] using hl
    obtain ⟨h', e, i, r⟩ := ih h slack hc fun k x hx => by simpa [credit] using hk (k + 1) x hx
    refine ⟨h', ?_, i, fun x hx => by simpa [credit] using r x hx⟩
    simp only [play, step, if_pos hl, Out.state?]
    exact e
  | @incref own own' o es ho _ ih =>
    intro h slack hc hk
    have hl : h.imm o = true ∨ 0 < h.rc o := by
      by_cases hi : h.imm o = true
      · exact .inl hi
      · have := hc o (by simpa using hi)
        have := hk 0 o (by simpa using hi)
        simp only [List.take_zero, credit] at this
        exact .inr (by omega)
    obtain ⟨h1, e1, i1, r1⟩ := incref_fields hl
    obtain ⟨h', e, i, r⟩ := ih h1 (fun x => slack x + if o = x then 1 else 0)
      (fun x hx => by
        rw [i1] at hx
        have := hc x hx
        have := r1 x hx
        split at this <;> rename_i hxo
        · rw [if_pos hxo.symm]; omega
        · rw [if_neg (Ne.symm hxo)]; omega)
      (fun k x hx => by
        rw [i1] at hx
        have := hk (k + 1) x hx
        simp only [List.take_succ_cons, credit] at this
        omega)
    refine ⟨h', ?_, by rw [i, i1], fun x hx => ?_⟩
    · simp only [play, step, e1, withHeap, Out.state?]
      exact e
    · have := r x (by rw [i1]; exact hx)
      simp only [credit]
      omega
  | @decref own own' o es ho _ ih =>
    intro h slack hc hk
    have hl : h.imm o = true ∨ 0 < h.rc o := by
      by_cases hi : h.imm o = true
      · exact .inl hi
      · have := hc o (by simpa using hi)
        have := hk 0 o (by simpa using hi)
        simp only [List.take_zero, credit] at this
        exact .inr (by omega)
    obtain ⟨h1, e1, i1, r1⟩ := decref_fields hl
    obtain ⟨h', e, i, r⟩ := ih h1 (fun x => slack x + -(if o = x then 1 else 0))
      (fun x hx => by
        rw [i1] at hx
        have := hc x hx
        have := r1 x hx
        have hk1 := hk 1 x hx
        simp only [List.take_succ_cons, List.take_zero, credit] at hk1
        split at this <;> rename_i hxo
        · rw [if_pos hxo.symm] at hk1 ⊢; omega
        · rw [if_neg (Ne.symm hxo)]; omega)
      (fun k x hx => by
        rw [i1] at hx
        have := hk (k + 1) x hx
        simp only [List.take_succ_cons, credit] at this
        omega)
    refine ⟨h', ?_, by rw [i, i1], fun x hx => ?_⟩
    · simp only [play, step, e1, withHeap, Out.state?]
      exact e
    · have := r x (by rw [i1]; exact hx)
      simp only [credit]
      omega
  | @bind own own' o es ho _ ih =>
    intro h slack hc hk
    have hl : h.imm o = true ∨ 0 < h.rc o := by
      by_cases hi : h.imm o = true
      · exact .inl hi
      · have := hc o (by simpa using hi)
        have := hk 0 o (by simpa using hi)
        simp only [List.take_zero, credit] at this
        exact .inr (by omega)
    obtain ⟨h1, e1, i1, r1⟩ := incref_fields hl
    obtain ⟨h', e, i, r⟩ := ih h1 slack
      (fun x hx => by
        rw [i1] at hx
        have := hc x hx
        have := r1 x hx
        simp only [rebind]
        split at this <;> rename_i hxo
        · rw [if_pos hxo]; subst hxo; omega
        · rw [if_neg hxo]; omega)
      (fun k x hx => by
        rw [i1] at hx
        simpa [credit] using hk (k + 1) x hx)
    refine ⟨h', ?_, by rw [i, i1], fun x hx => ?_⟩
    · simp only [play, step, e1, withHeap, Out.state?]
      exact e
    · have := r x (by rw [i1]; exact hx)
      simpa [credit] using this
  | @drop own own' o es ho _ ih =>
    intro h slack hc hk
    have hl : h.imm o = true ∨ 0 < h.rc o := by
      by_cases hi : h.imm o = true
      · exact .inl hi
      · have := hc o (by simpa using hi)
        have := hk 0 o (by simpa using hi)
        simp only [List.take_zero, credit] at this
        exact .inr (by omega)
    obtain ⟨h1, e1, i1, r1⟩ := decref_fields hl
    obtain ⟨h', e, i, r⟩ := ih h1 slack
      (fun x hx => by
        rw [i1] at hx
        have := hc x hx
        have := r1 x hx
        simp only [rebind]
        split at this <;> rename_i hxo
        · rw [if_pos hxo]; subst hxo; omega
        · rw [if_neg hxo]; omega)
      (fun k x hx => by
        rw [i1] at hx
        simpa [credit] using hk (k + 1) x hx)
    refine ⟨h', ?_, by rw [i, i1], fun x hx => ?_⟩
    · simp only [play, step, e1, withHeap, Out.state?]
      exact e
    · have := r x (by rw [i1]; exact hx)
      simpa [credit] using this
  | @asObject own own' a o es ht ho _ ih =>
    intro h slack hc hk
    have hl : h.imm o = true ∨ 0 < h.rc o := by
      by_cases hi : h.imm o = true
      · exact .inl hi
      · have := hc o (by simpa using hi)
        have := hk 0 o (by simpa using hi)
        simp only [List.take_zero, credit] at this
        exact .inr (by omega)
    have e1 := asObject_live ht hl
    obtain ⟨h', e, i, r⟩ := ih h (fun x => slack x + -(if target a = some x then 1 else 0))
      (fun x hx => by
        have := hc x hx
        simp only [rebind, ht, Option.some.injEq]
        by_cases hxo : x = o
        · subst hxo; rw [if_pos rfl, if_pos rfl]; omega
        · rw [if_neg hxo, if_neg (Ne.symm hxo)]; omega)
      (fun k x hx => by
        have := hk (k + 1) x hx
        simp only [List.take_succ_cons, credit] at this
        omega)
    refine ⟨h', ?_, i, fun x hx => ?_⟩
    · simp only [play, step, e1, Out.state?]
      exact e
    · have := r x hx
      simp only [credit]
      omega

/-- `n` times: get the object from its address and drop the name again. -/
def rounds (a : Arg) (o : Obj) : Nat → List REvent
  | 0 => []
  | n + 1 => .asObject a :: .drop o :: rounds a o n

theorem rounds_names {own : Obj → Nat} {a : Arg} {o : Obj} (ht : target a = some o) (ho : 0 < own o) (n : Nat) :
    Names own (rounds a o n) own := by
  induction n with
  | zero => exact .nil own
  | succ n ih =>
    refine .asObject (o := o) ht ho (.drop (by simp [rebind]) ?_)
    have : rebind (rebind own o (own o + 1)) o (rebind own o (own o + 1) o - 1) = own := by
      funext x
      simp only [rebind]
      split
      · rename_i e; rw [if_pos trivial, e]; omega
      · rfl
    rw [this]
    exact ih

theorem rounds_play {a : Arg} {o : Obj} (ht : target a = some o) (n : Nat) :
    ∀ h : Heap, h.imm o = false → n ≤ h.rc o →
      ∃ h', play h (rounds a o n) = some h' ∧ h'.imm = h.imm ∧ h'.rc o = h.rc o - n := by
  induction n with
  | zero => intro h _ _; exact ⟨h, rfl, rfl, rfl⟩
  | succ n ih =>
    intro h hm hn
    have e1 := asObject_live (h := h) ht (.inr (by omega))
    obtain ⟨h2, e2, i2, r2⟩ := decref_fields (h := h) (o := o) (.inr (by omega))
    have r2 := r2 o hm
    rw [if_pos rfl] at r2
    obtain ⟨h', e, i, r⟩ := ih h2 (by rw [i2]; exact hm) (by omega)
    refine ⟨h', ?_, by rw [i, i2], by omega⟩
    simp only [rounds, play, step, e1, Out.state?, e2, withHeap]
    exact e

end Verif.UnsafeObj
