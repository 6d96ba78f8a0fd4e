import Verif.Props.Sort

/-!
# C35, exactly: what the sorts of the other classes make of failing callbacks

`ObjectArrayList.sort` does with every callback what C35 asks (`C35_object_array`). Here the other classes are compared with
it, callback by callback.
-/

namespace Verif.Props

open Verif Verif.Spec CPySort ListSort

variable {σ κ ν : Type}

/-- ObjectLinkedList against ObjectArrayList, for all callbacks. Without memory for the copy it raises MemoryError and changes
nothing. Otherwise it makes the same callbacks and leaves the same elements in its nodes; where ObjectArrayList returns, it
returns, and where ObjectArrayList raises, it returns with that exception pending. So it does what C35 asks exactly if no
callback raises. -/
theorem C35_object_linked_exact (c : Call σ κ ν) (env : σ) (s : LState ν) (rev : Bool) (hmax : s.vals.length < 2 ^ 60) :
    (∀ env1, c.malloc env s.size = (false, env1) → objLinked c env s rev = .ok (.exc s .memoryError, env1)) ∧
    ∀ env1, c.malloc env s.size = (true, env1) → ∃ s' env', s'.vals.Perm s.vals ∧ s'.ids = s.ids ∧
      ((objArray c env1 s.vals rev = .ok (.ok s'.vals (), env') ∧ objLinked c env s rev = .ok (.ok s' (), env')) ∨
       ∃ e, c.Raised env' e ∧ objArray c env1 s.vals rev = .ok (.exc s'.vals e, env') ∧
         objLinked c env s rev = .ok (.pending s' () e, env')) := by
  refine ⟨fun env1 hm => by unfold objLinked; rw [hm], fun env1 hm1 => ?_⟩
  obtain ⟨ok, out, env', err, h1, h2, h3, h4, _, _⟩ := call_spec c env1 s.vals rev hmax
  have hlen : s.ids.length = out.length := by rw [h2.length_eq]; simp [LState.ids, LState.vals]
  have hv : (LState.vals { s with nodes := s.ids.zip out, modCount := s.modCount + 1 }) = out := by
    simp only [LState.vals]; rw [List.map_snd_zip]; omega
  refine ⟨{ s with nodes := s.ids.zip out, modCount := s.modCount + 1 }, env', by rw [hv]; exact h2, ?_, ?_⟩
  · simp only [LState.ids]
    rw [List.map_fst_zip]
    simp only [LState.ids] at hlen
    omega
  · rw [hv]
    cases ok with
    | true =>
      have he := h4 rfl
      subst he
      refine Or.inl ⟨?_, ?_⟩
      · unfold objArray
        simp only [h1, bind, Except.bind, pure, Except.pure]
      · unfold objLinked
        rw [hm1]
        simp only [h1, bind, Except.bind, pure, Except.pure]
    | false =>
      obtain ⟨e, rfl, hr⟩ := h3 rfl
      refine Or.inr ⟨e, hr, ?_, ?_⟩
      · unfold objArray
        simp only [h1, bind, Except.bind, pure, Except.pure]
      · unfold objLinked
        rw [hm1]
        simp only [h1, bind, Except.bind, pure, Except.pure]

/-- IntArrayList and BigIntArrayList with a key against ObjectArrayList on the int objects they make, for all callbacks:
without memory MemoryError, nothing changed. Otherwise the same callbacks are made and the elements are left in the same
order, as they come back through objects; the call returns, with OverflowError pending if an element does not come back, else
with the exception pending that ObjectArrayList raises, if it raises one. -/
theorem C35_int_array_exact (K : Kind) (py : PyVer) (c : Caller σ κ PyLong) (env : σ) (l : List Int) (rev : Bool)
    (hf : ∀ v ∈ l, FitsS K.bits v) (hmax : l.length < 2 ^ 60) :
    (∀ env1, c.malloc env l.length = (false, env1) → intArray K py c env l rev = .ok (.exc l .memoryError, env1)) ∧
    ∀ env1, c.malloc env l.length = (true, env1) → ∃ (srt : List Int) (env' : σ), srt.Perm l ∧
      ((objArray (.keyed c : Call σ κ PyLong) env1 (l.map (box K py)) rev = .ok (.ok (srt.map (box K py)) (), env') ∧
        (l.any (Lost K py) = false → intArray K py c env l rev = .ok (.ok (srt.map (sent K py)) (), env')) ∧
        (l.any (Lost K py) = true → intArray K py c env l rev = .ok (.pending (srt.map (sent K py)) () .overflowError, env'))) ∨
       ∃ e, CallerRaised c env' e ∧
        objArray (.keyed c : Call σ κ PyLong) env1 (l.map (box K py)) rev = .ok (.exc (srt.map (box K py)) e, env') ∧
        (l.any (Lost K py) = false → intArray K py c env l rev = .ok (.pending (srt.map (sent K py)) () e, env')) ∧
        (l.any (Lost K py) = true → intArray K py c env l rev = .ok (.pending (srt.map (sent K py)) () .overflowError, env'))) := by
  refine ⟨fun env1 hm => by unfold intArray; rw [hm], fun env1 hm => ?_⟩
  obtain ⟨ok, out, env', err, h1, h2, h3, h4, h5, _⟩ := call_spec (.keyed c : Call σ κ PyLong) env1 (l.map (box K py)) rev (by simpa using hmax)
  obtain ⟨srt, rfl, hp⟩ := perm_boxed K py l out h2
  have hany : srt.any (Lost K py) = l.any (Lost K py) := by
    rw [Bool.eq_iff_iff, List.any_eq_true, List.any_eq_true]
    constructor
    · rintro ⟨x, a, b⟩; exact ⟨x, hp.mem_iff.1 a, b⟩
    · rintro ⟨x, a, b⟩; exact ⟨x, hp.mem_iff.2 a, b⟩
  have hk : sortKeyed c env1 (l.map (box K py)) rev = .ok (ok, srt.map (box K py), env', err) := h1
  have hi : intArray K py c env l rev =
      .ok (finish (srt.map (sent K py)) (if l.any (Lost K py) then some .overflowError else err), env') := by
    unfold intArray
    rw [hm]
    simp only [hk, bind, Except.bind]
    rw [writeBack_eq K py srt (fun v hv => hf v (hp.mem_iff.1 hv)), hany]
    rfl
  refine ⟨srt, env', hp, ?_⟩
  cases ok with
  | true =>
    have he := h4 rfl
    subst he
    refine Or.inl ⟨?_, fun ha => ?_, fun ha => ?_⟩
    · unfold objArray
      simp only [h1, bind, Except.bind, pure, Except.pure]
    · rw [hi, ha]; rfl
    · rw [hi, ha]; rfl
  | false =>
    obtain ⟨e, rfl, hr⟩ := h3 rfl
    refine Or.inr ⟨e, hr, ?_, fun ha => ?_, fun ha => ?_⟩
    · unfold objArray
      simp only [h1, bind, Except.bind, pure, Except.pure]
    · rw [hi, ha]; rfl
    · rw [hi, ha]; rfl

/-- IntLinkedList with a key: as IntArrayList, with the values in the nodes it had. -/
theorem C35_int_linked_exact (py : PyVer) (c : Caller σ κ PyLong) (env : σ) (s : LState Int) (rev : Bool)
    (hf : ∀ v ∈ s.vals, FitsS 32 v) (hmax : s.vals.length < 2 ^ 60) :
    (∀ env', intArray .i32 py c env s.vals rev = .ok (.exc s.vals .memoryError, env') →
      intLinked py c env s rev = .ok (.exc s .memoryError, env')) ∧
    (∀ l env', intArray .i32 py c env s.vals rev = .ok (.ok l (), env') →
      ∃ s', intLinked py c env s rev = .ok (.ok s' (), env') ∧ s'.vals = l ∧ s'.ids = s.ids) ∧
    (∀ l e env', intArray .i32 py c env s.vals rev = .ok (.pending l () e, env') →
      ∃ s', intLinked py c env s rev = .ok (.pending s' () e, env') ∧ s'.vals = l ∧ s'.ids = s.ids) := by
  have key : ∀ l : List Int, l.length = s.vals.length →
      LState.vals { s with nodes := s.ids.zip l, modCount := s.modCount + 1 } = l ∧
      LState.ids { s with nodes := s.ids.zip l, modCount := s.modCount + 1 } = s.ids := by
    intro l hl
    have hlen : s.ids.length = l.length := by rw [hl]; simp [LState.ids, LState.vals]
    constructor
    · simp only [LState.vals]; rw [List.map_snd_zip]; omega
    · simp only [LState.ids]
      rw [List.map_fst_zip]
      simp only [LState.ids] at hlen
      omega
  have hlen : ∀ o env', intArray .i32 py c env s.vals rev = .ok (o, env') → ∀ l, (o = .ok l () ∨ ∃ e, o = .pending l () e) →
      l.length = s.vals.length := by
    intro o env' ho l hl
    rcases intArray_spec .i32 py c env s.vals rev hf hmax with ⟨e, h, _⟩ | ⟨env1, srt, env2, err, _, hp, h2, _, _⟩
    · rw [ho] at h
      cases h
      rcases hl with hl | ⟨_, hl⟩ <;> cases hl
    · rw [ho] at h2
      cases h2
      have : l = srt.map (sent .i32 py) := by
        unfold finish at hl
        split at hl
        · rcases hl with hl | ⟨_, hl⟩ <;> cases hl; rfl
        · rcases hl with hl | ⟨_, hl⟩ <;> cases hl; rfl
      rw [this, List.length_map, hp.length_eq]
  refine ⟨fun env' h => ?_, fun l env' h => ?_, fun l e env' h => ?_⟩
  · unfold intLinked
    simp only [h, bind, Except.bind, pure, Except.pure]
  · obtain ⟨a, b⟩ := key l (hlen _ _ h l (.inl rfl))
    refine ⟨_, ?_, a, b⟩
    unfold intLinked
    simp only [h, bind, Except.bind, pure, Except.pure]
  · obtain ⟨a, b⟩ := key l (hlen _ _ h l (.inr ⟨e, rfl⟩))
    refine ⟨_, ?_, a, b⟩
    unfold intLinked
    simp only [h, bind, Except.bind, pure, Except.pure]

/-! ### The hypotheses are satisfiable: callbacks that fail, and what is left -/

private def five : LState Int := ⟨[(0, 1), (1, 2), (2, 3), (3, 4), (4, 5)], 5, 0⟩

example : five.vals.length < 2 ^ 60 ∧ (Call.keyed moody : Call (Nat × Bool) Int Int).malloc (0, false) five.size = (true, (0, false)) := by
  decide
example : (objLinked (Call.keyed moody : Call (Nat × Bool) Int Int) (0, false) five false).toOption.map
    (fun r => (match r.1 with | .pending s _ e => some (s.vals, e) | _ => none)) = some (some ([1, 2, 3, 4, 5], .valueError)) := by
  decide +kernel

end Verif.Props
