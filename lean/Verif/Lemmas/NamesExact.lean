import Verif.Lemmas.UnsafeObj

/-! # Which histories of names keep the named objects alive -/

namespace Verif.UnsafeObj

open Spec

/-- One event on a heap in which the objects the client has names for are alive. -/
theorem names_step {own own' : Obj → Nat} {e : REvent} {es : List REvent} (hn : Names own (e :: es) own') :
    ∃ own1, Names own1 es own' ∧ (∀ es' ownk, Names own (e :: es') ownk ↔ Names own1 es' ownk) ∧
      ∀ h : Heap, (∀ o, 0 < own o → h.live o = true) → ∃ h1, (step h e).state? = some h1 ∧ h1.imm = h.imm ∧
        ∀ x, h.imm x = false → (h1.rc x : Int) - own1 x = h.rc x - own x + credit x [e] := by
  cases hn with
  | getAddress ho hn =>
    refine ⟨own, hn, fun es' ownk => ⟨fun h => by cases h; assumption, fun h => .getAddress ho h⟩, fun h _ =>
      ⟨h, rfl, rfl, fun x _ => by simp [credit]⟩⟩
  | refcnt ho hn =>
    refine ⟨own, hn, fun es' ownk => ⟨fun h => by cases h; assumption, fun h => .refcnt ho h⟩, fun h hl =>
      ⟨h, ?_, rfl, fun x _ => by simp [credit]⟩⟩
    simp only [step, if_pos (hl _ ho), Out.state?]
  | @incref _ _ o _ ho hn =>
    refine ⟨own, hn, fun es' ownk => ⟨fun h => by cases h; assumption, fun h => .incref ho h⟩, fun h hl => ?_⟩
    obtain ⟨h1, e1, i1, r1⟩ := incref_fields (live_iff.1 (hl _ ho))
    refine ⟨h1, by simp only [step, e1, withHeap, Out.state?], i1, fun x hx => ?_⟩
    have := r1 x hx
    simp only [credit]
    by_cases hxo : x = o
    · rw [if_pos hxo] at this; rw [if_pos hxo.symm]; omega
    · rw [if_neg hxo] at this; rw [if_neg (Ne.symm hxo)]; omega
  | @decref _ _ o _ ho hn =>
    refine ⟨own, hn, fun es' ownk => ⟨fun h => by cases h; assumption, fun h => .decref ho h⟩, fun h hl => ?_⟩
    have hlo := live_iff.1 (hl _ ho)
    obtain ⟨h1, e1, i1, r1⟩ := decref_fields hlo
    refine ⟨h1, by simp only [step, e1, withHeap, Out.state?], i1, fun x hx => ?_⟩
    have := r1 x hx
    simp only [credit]
    by_cases hxo : x = o
    · have h0 : 0 < h.rc o := hlo.resolve_left (by rw [← hxo, hx]; simp)
      rw [if_pos hxo] at this; rw [if_pos hxo.symm]; subst hxo; omega
    · rw [if_neg hxo] at this; rw [if_neg (Ne.symm hxo)]; omega
  | @bind _ _ o _ ho hn =>
    refine ⟨_, hn, fun es' ownk => ⟨fun h => by cases h; assumption, fun h => .bind ho h⟩, fun h hl => ?_⟩
    obtain ⟨h1, e1, i1, r1⟩ := incref_fields (live_iff.1 (hl _ ho))
    refine ⟨h1, by simp only [step, e1, withHeap, Out.state?], i1, fun x hx => ?_⟩
    have := r1 x hx
    simp only [credit, rebind]
    by_cases hxo : x = o
    · rw [if_pos hxo] at this; rw [if_pos hxo]; subst hxo; omega
    · rw [if_neg hxo] at this; rw [if_neg hxo]; omega
  | @drop _ _ o _ ho hn =>
    refine ⟨_, hn, fun es' ownk => ⟨fun h => by cases h; assumption, fun h => .drop ho h⟩, fun h hl => ?_⟩
    have hlo := live_iff.1 (hl _ ho)
    obtain ⟨h1, e1, i1, r1⟩ := decref_fields hlo
    refine ⟨h1, by simp only [step, e1, withHeap, Out.state?], i1, fun x hx => ?_⟩
    have := r1 x hx
    simp only [credit, rebind]
    by_cases hxo : x = o
    · have h0 : 0 < h.rc o := hlo.resolve_left (by rw [← hxo, hx]; simp)
      rw [if_pos hxo] at this; rw [if_pos hxo]; subst hxo; omega
    · rw [if_neg hxo] at this; rw [if_neg hxo]; omega
  | @asObject _ _ a o _ ht ho hn =>
    refine ⟨_, hn, fun es' ownk => ⟨fun h => ?_, fun h => .asObject ht ho h⟩, fun h hl => ?_⟩
    · cases h with
      | asObject ht' _ h =>
        rw [ht] at ht'
        cases ht'
        exact h
    · refine ⟨h, by rw [step_asObject ht (live_iff.1 (hl _ ho))]; rfl, rfl, fun x hx => ?_⟩
      simp only [credit, rebind, ht, Option.some.injEq]
      by_cases hxo : x = o
      · rw [if_pos hxo, if_pos hxo.symm]; subst hxo; omega
      · rw [if_neg hxo, if_neg (Ne.symm hxo)]; omega

theorem credit_cons (o : Obj) (e : REvent) (es : List REvent) : credit o (e :: es) = credit o [e] + credit o es := by
  cases e <;> simp [credit]

/-- The counts in closed form, as long as the named objects are alive. -/
theorem names_alive (es : List REvent) : ∀ (own own' : Obj → Nat) (h : Heap), Names own es own' →
    ((∀ k ownk, Names own (es.take k) ownk → ∃ hk, play h (es.take k) = some hk ∧ ∀ o, 0 < ownk o → hk.live o = true) ↔
      ∀ k ownk, Names own (es.take k) ownk → ∀ o, h.imm o = false → 0 < ownk o →
        0 < (ownk o : Int) - own o + h.rc o + credit o (es.take k)) := by
  induction es with
  | nil =>
    intro own own' h _
    constructor
    · intro hh k ownk hk o ho hp
      obtain ⟨hk', e, hl⟩ := hh k ownk hk
      rw [List.take_nil] at e hk ⊢
      cases hk
      cases e
      have := (live_iff.1 (hl o hp)).resolve_left (by rw [ho]; simp)
      simp only [credit]
      omega
    · intro hh k ownk hk
      rw [List.take_nil] at hk ⊢
      cases hk
      refine ⟨h, rfl, fun o hp => ?_⟩
      rw [live_iff]
      by_cases ho : h.imm o = true
      · exact .inl ho
      · have := hh 0 own (.nil _) o (by simpa using ho) hp
        simp only [List.take_nil, credit] at this
        exact .inr (by omega)
  | cons e es ih =>
    intro own own' h hn
    obtain ⟨own1, hn1, hiff, hstep⟩ := names_step hn
    -- the first moment
    have hzero : (∀ o, 0 < own o → h.live o = true) ↔ ∀ o, h.imm o = false → 0 < own o → 0 < h.rc o := by
      refine forall_congr' fun o => ?_
      rw [live_iff]
      cases h.imm o <;> simp
    constructor
    · intro hh
      have h0 : ∀ o, 0 < own o → h.live o = true := by
        obtain ⟨hk, e0, hl⟩ := hh 0 own (.nil _)
        cases e0
        exact hl
      obtain ⟨h1, e1, i1, r1⟩ := hstep h h0
      have hrest := (ih own1 own' h1 hn1).1 fun k ownk hk => by
        have := hh (k + 1) ownk (by rw [List.take_succ_cons]; exact (hiff _ _).2 hk)
        rw [List.take_succ_cons] at this
        simpa only [play, e1] using this
      intro k ownk hk o ho hp
      cases k with
      | zero =>
        rw [List.take_zero] at hk ⊢
        cases hk
        have := hzero.1 h0 o ho hp
        simp only [credit]
        omega
      | succ k =>
        rw [List.take_succ_cons] at hk ⊢
        have := hrest k ownk ((hiff _ _).1 hk) o (by rw [i1]; exact ho) hp
        have := r1 o ho
        rw [credit_cons]
        omega
    · intro hh
      have h0 : ∀ o, 0 < own o → h.live o = true := hzero.2 fun o ho hp => by
        have := hh 0 own (.nil _) o ho hp
        simp only [List.take_zero, credit] at this
        omega
      obtain ⟨h1, e1, i1, r1⟩ := hstep h h0
      have hrest := (ih own1 own' h1 hn1).2 fun k ownk hk o ho hp => by
        rw [i1] at ho
        have := hh (k + 1) ownk (by rw [List.take_succ_cons]; exact (hiff _ _).2 hk) o ho hp
        rw [List.take_succ_cons, credit_cons] at this
        have := r1 o ho
        omega
      intro k ownk hk
      cases k with
      | zero =>
        rw [List.take_zero] at hk ⊢
        cases hk
        exact ⟨h, rfl, h0⟩
      | succ k =>
        rw [List.take_succ_cons] at hk ⊢
        obtain ⟨hk', e2, hl⟩ := hrest k ownk ((hiff _ _).1 hk)
        exact ⟨hk', by simp only [play, e1]; exact e2, hl⟩

end Verif.UnsafeObj
