import Verif.Lemmas.IntArrayList

/-! Helper lemmas: one call of the array list model against the specification; histories. -/

namespace Verif.ArrayList

open Verif

theorem ite_or {α : Type _} {c : Prop} [Decidable c] {a b x : α} (h : (if c then a else b) = x) : a = x ∨ b = x := by
  split at h
  · exact .inl h
  · exact .inr h

theorem map_box_eq (cfg : Cfg) (K : Kind) (l : List Int) (hf : AllFits K l) (hb : ∀ v ∈ l, BoxOk cfg K v) :
    l.map (box K cfg.py) = l.map canon :=
  List.map_congr_left fun v hv => (box_eq_canon_iff cfg K (hf v hv)).2 (hb v hv)

theorem pick_sub (l : List Int) (ps : List Nat) : ∀ v ∈ Spec.pick l ps, v ∈ l := by
  intro v hv
  unfold Spec.pick at hv
  obtain ⟨p, -, hp⟩ := List.mem_filterMap.1 hv
  exact List.mem_of_getElem? hp

theorem getD_mem (l : List Int) {p : Nat} (h : p < l.length) : l.getD p 0 ∈ l := by
  rw [List.getD_eq_getElem?_getD, List.getElem?_eq_getElem h]; exact List.getElem_mem h

theorem step_agrees (cfg : Cfg) (K : Kind) (l : List Int) (op : Op) (hf : AllFits K l) (h : OpOk cfg K l op) :
    Agrees (step cfg K l op) (Spec.step K.bits l op) := by
  cases op with
  | append a => exact append_ok K l a h
  | extend s =>
    refine extendWith_ok K l s .none .none trivial h.1 h.2.1 ?_
    rintro x rfl; exact ⟨h.2.2, rfl⟩
  | iadd s =>
    refine extendWith_ok K l s .self .self trivial h.1 h.2.1 ?_
    rintro x rfl; exact absurd h.2.2 id
  | insert i a => exact insert_ok K l i a
  | pop a =>
    obtain ⟨h1, h2⟩ := h
    simp only [step, Spec.step]
    rw [pop_eq cfg K l a (by rintro v rfl; exact h1)]
    by_cases hl : l = []
    · subst hl
      simp only [if_true]
      have hp : ∀ i, Spec.position 0 i = none := by
        intro i; unfold Spec.position
        rw [if_neg (by omega), if_neg (by omega)]
      cases a with
      | none => simp [hp, Agrees]
      | some a => cases a with
        | index => exact absurd h1 id
        | other => simp at h1
        | int v =>
          simp only [not_true_eq_false, false_or, ne_eq] at h1
          have : Spec.word .overflowError (.int v) = .ok v := if_pos h1
          simp [this, hp, Agrees]
    · rw [if_neg hl]
      suffices key : ∀ w : Except Exc Int, Agrees (match w with
          | .error e => .exc l e
          | .ok i => match Spec.position l.length i with
            | none => .exc l .indexError
            | some p => .ok (l.take p ++ l.drop (p + 1)) (.int (box K cfg.py (l.getD p 0))))
          (match w with
            | .error e => (l, .error e)
            | .ok i =>
              match Spec.position l.length i with
              | none => (l, .error .indexError)
              | some p => (l.take p ++ l.drop (p + 1), .ok (.int (l.getD p 0)))) by
        cases a with
        | none => exact key (.ok (-1))
        | some a => exact key (Spec.word .overflowError a)
      intro w
      cases w with
      | error e => simp [Agrees]
      | ok i =>
        simp only
        cases hp : Spec.position l.length i with
        | none => simp [Agrees]
        | some p =>
          have hm := getD_mem l (position_lt hp)
          simp only [Agrees, RetIs, true_and]
          exact (box_eq_canon_iff cfg K (hf _ hm)).2 (h2 _ hm)
  | remove a => cases a with
    | int v => exact remove_ok K l v h
    | _ => exact absurd h id
  | index a i j =>
    obtain ⟨h1, h2, h3⟩ := h
    have hb : ∀ o : Option Arg, BoundOk o → ∀ x, o = some x → x = .other ∨ ∃ v, Spec.word .overflowError x = .ok v := by
      rintro o ho x rfl
      cases x with
      | other => exact .inl rfl
      | int v | index v => exact .inr ⟨v, if_pos (show FitsS 64 v from ho)⟩
    cases a with
    | int v => exact index_ok K l v i j h1 (hb i h2) (hb j h3)
    | _ => exact absurd h1 id
  | count a => cases a with
    | int v => exact count_ok K l v h
    | _ => exact absurd h id
  | contains a =>
    refine contains_ok K l a ?_
    rintro v rfl; exact h
  | get k =>
    cases k with
    | idx a =>
      obtain ⟨h1, h2⟩ := h
      have e : subscript cfg K l (.idx a) = (match asSsizeIndex a with
          | (_, some e) => .exc l e
          | (i, none) => getItem cfg K l i) := by
        cases a with
        | other => exact absurd rfl h1
        | _ => rfl
      simp only [step, Spec.step, e, asSsizeIndex_eq]
      cases Spec.word .indexError a with
      | error e => simp [Agrees]
      | ok i =>
        simp only [getItem_eq]
        cases hp : Spec.position l.length i with
        | none => simp [Agrees]
        | some p =>
          have hm := getD_mem l (position_lt hp)
          simp only [Agrees, RetIs, true_and]
          exact (box_eq_canon_iff cfg K (hf _ hm)).2 (h2 _ hm)
    | slice s =>
      obtain ⟨h1, h2⟩ := h
      simp only [step, Spec.step, slice_read cfg K l s h1]
      cases Spec.fields s with
      | error e => simp [Agrees]
      | ok f =>
        obtain ⟨i, j, k⟩ := f
        simp only [Agrees, RetIs, true_and]
        exact map_box_eq cfg K _ (fun v hv => hf v (pick_sub _ _ v hv)) (fun v hv => h2 v (pick_sub _ _ v hv))
  | set k v =>
    cases k with
    | idx a =>
      obtain ⟨h1, h2⟩ := h
      suffices key : ∀ x : Arg, NoTrunc K x → Agrees (match asSsizeIndex a with
          | (_, some e) => .exc l e
          | (i, none) => setItem K l i (some x))
          (match Spec.word .indexError a with
            | .error e => (l, .error e)
            | .ok i =>
              match Spec.position l.length i with
              | none => (l, .error .indexError)
              | some p =>
                match Spec.elem K.bits x with
                | .error e => (l, .error e)
                | .ok v => (l.take p ++ v :: l.drop (p + 1), .ok .none)) by
        cases v with
        | inl x => cases a with
          | other => exact absurd rfl h1
          | _ => exact key x h2
        | inr x => cases a with
          | other => exact absurd rfl h1
          | _ => exact key .other trivial
      intro x hnt
      simp only [asSsizeIndex_eq]
      cases Spec.word .indexError a with
      | error e => simp [Agrees]
      | ok i =>
        simp only [setItem_eq, toElem_eq hnt]
        cases hp : Spec.position l.length i with
        | none => simp [Agrees]
        | some p =>
          simp only
          cases Spec.elem K.bits x with
          | error e => simp [Agrees]
          | ok x => simp [Agrees, RetIs]
    | slice s =>
      obtain ⟨h1, h2⟩ := h
      cases v with
      | inl x =>
        simp only [step, assSubscript, Spec.step]
        rw [(sliceUnpack_fields s).1]
        cases Spec.fields s with
        | error e => simp [Agrees]
        | ok f => simp [Agrees]
      | inr src =>
        refine set_slice_ok cfg K l s src h1 ?_
        rcases h2 with h2 | ⟨h2, h3⟩
        · exact .inl h2
        · refine .inr ⟨h2, ?_⟩
          intro i j k hk
          rw [hk] at h3; exact h3
  | del k =>
    cases k with
    | idx a =>
      have e : assSubscript cfg K l (.idx a) none = (match asSsizeIndex a with
          | (_, some e) => .exc l e
          | (i, none) => setItem K l i none) := by
        cases a with
        | other => exact absurd rfl h
        | _ => rfl
      simp only [step, Spec.step, e, asSsizeIndex_eq]
      cases Spec.word .indexError a with
      | error e => simp [Agrees]
      | ok i =>
        simp only [setItem_eq]
        cases hp : Spec.position l.length i <;> simp [Agrees, RetIs]
    | slice s =>
      simp only [OpOk] at h
      simp only [step, assSubscript, Spec.step]
      rw [(sliceUnpack_fields s).1]
      cases hs : Spec.fields s with
      | error e => simp [Agrees]
      | ok f => rw [hs] at h; exact absurd h id
  | add s =>
    cases s with
    | same | self => exact absurd h id
    | list xs =>
      simp only [step, add, Spec.step, Agrees, RetIs, true_and, and_true, toList]
      exact map_box_eq cfg K l hf h
    | _ => simp [step, add, Spec.step, Agrees]
  | mul n =>
    simp only [step, Spec.step, (mul_eq cfg K l n).1 h, Agrees, RetIs, and_self]
  | rmul a =>
    cases a with
    | int n | index n =>
      simp only [step, rmul, asLong, Spec.step]
      by_cases h64 : FitsS 64 n
      · rw [if_pos h64, if_pos (show Spec.InRange 64 n from h64)]
        simp only [(mul_eq cfg K l n).1 (h h64), Agrees, RetIs, and_self]
      · rw [if_neg h64, if_neg (show ¬ Spec.InRange 64 n from h64)]
        simp [Agrees]
    | other => simp [step, rmul, asLong, Spec.step, Agrees]
  | imul n =>
    have e : imul cfg K l n = .ok (Spec.copies l n) .self := by
      rcases h with h | rfl
      · exact imul_small cfg K l n h
      · exact imul_nil cfg K n
    simp only [step, Spec.step, e, Agrees, RetIs, and_self]
  | cmp op s =>
    rcases h with h | h
    · obtain ⟨v, hv⟩ := Option.isSome_iff_exists.1 h
      exact compare_ints K op l v s hv
    · cases s with
      | iter xs f => rcases h with rfl | rfl <;> simp [step, compare, eq, boolOut, Spec.step, Spec.cmp, Agrees, RetIs]
      | notIterable => rcases h with rfl | rfl <;> simp [step, compare, eq, boolOut, Spec.step, Spec.cmp, Agrees, RetIs]
      | _ => exact absurd h id
  | reverse => simp only [step, Spec.step, reverse_eq cfg K l hf, Agrees, RetIs, and_self]
  | resize a => exact resize_ok K l a
  | clear => simp [step, Spec.step, Agrees, RetIs]
  | copy => simp [step, Spec.step, Agrees, RetIs]
  | toList =>
    simp only [step, Spec.step, Agrees, RetIs, true_and, toList]
    exact map_box_eq cfg K l hf h
  | len => simp [step, Spec.step, Agrees, RetIs]
  | repr => simp [step, Spec.step, Agrees, RetIs, repr_eq]

/-! ### The specification keeps elements in range -/

theorem fits_append {K : Kind} {a b : List Int} (ha : AllFits K a) (hb : AllFits K b) : AllFits K (a ++ b) := by
  intro v hv; rcases List.mem_append.1 hv with h | h
  · exact ha v h
  · exact hb v h

theorem fits_cons {K : Kind} {x : Int} {b : List Int} (ha : FitsS K.bits x) (hb : AllFits K b) :
    AllFits K (x :: b) := by
  intro v hv; rcases List.mem_cons.1 hv with h | h
  · exact h ▸ ha
  · exact hb v h

theorem fits_take {K : Kind} {a : List Int} (ha : AllFits K a) (n : Nat) : AllFits K (a.take n) :=
  fun v hv => ha v (List.mem_of_mem_take hv)

theorem fits_drop {K : Kind} {a : List Int} (ha : AllFits K a) (n : Nat) : AllFits K (a.drop n) :=
  fun v hv => ha v (List.mem_of_mem_drop hv)

theorem fits_nil (K : Kind) : AllFits K [] := fun _ h => absurd h (List.not_mem_nil)

theorem fits_prefix (K : Kind) (xs : List Arg) : AllFits K (Spec.prefixElems K.bits xs) := by
  intro v hv
  obtain ⟨a, ha, rfl⟩ := List.mem_map.1 hv
  have ha : Spec.IsElem K.bits a = true := by
    induction xs with
    | nil => simp at ha
    | cons x xs ih =>
      rw [List.takeWhile_cons] at ha
      split at ha
      · next hx =>
        rcases List.mem_cons.1 ha with rfl | h
        · exact hx
        · exact ih h (List.mem_map_of_mem h)
      · simp at ha
  cases a <;> simp [Spec.IsElem, Spec.argVal] at ha ⊢ <;> exact ha

theorem fits_absorb {K : Kind} {l : List Int} (hf : AllFits K l) (s : Src) (v : Spec.Val) :
    AllFits K (Spec.absorb K.bits l s v).1 := by
  unfold Spec.absorb
  split
  · exact hf
  · split <;> exact fits_append hf (fits_prefix K _)

theorem fits_elem {K : Kind} {a : Arg} {v : Int} (h : Spec.elem K.bits a = .ok v) : FitsS K.bits v := elem_fits h

theorem fits_overwrite {K : Kind} {l : List Int} (hf : AllFits K l) (ps : List Nat) (xs : List Int)
    (hx : AllFits K xs) : AllFits K (Spec.overwrite l ps xs) := by
  induction ps generalizing l xs with
  | nil => simpa [Spec.overwrite] using hf
  | cons p ps ih =>
    cases xs with
    | nil => simpa [Spec.overwrite] using hf
    | cons x xs =>
      rw [Spec.overwrite]
      refine ih ?_ xs (fun v hv => hx v (List.mem_cons_of_mem _ hv))
      intro v hv
      rcases List.mem_or_eq_of_mem_set hv with h | h
      · exact hf v h
      · exact h ▸ hx x (List.mem_cons_self ..)

theorem fits_allElems {K : Kind} {xs : List Arg} {vs : List Int} (h : Spec.allElems K.bits xs = .ok vs) :
    AllFits K vs := by
  unfold Spec.allElems at h
  split at h
  · cases h
  · next hb =>
    obtain rfl := Except.ok.inj h
    unfold Spec.firstBad at hb
    have hn : xs.find? (fun a => !Spec.IsElem K.bits a) = none := by
      split at hb
      · assumption
      · cases hb
      · cases hb
    intro v hv
    obtain ⟨a, ha, rfl⟩ := List.mem_map.1 hv
    have := List.find?_eq_none.1 hn a ha
    simp only [Bool.not_eq_true', Bool.not_eq_false] at this
    cases a <;> simp [Spec.IsElem, Spec.argVal] at this ⊢ <;> exact this

theorem spec_fits (K : Kind) (l : List Int) (op : Op) (hf : AllFits K l) :
    AllFits K (Spec.step K.bits l op).1 := by
  have hz : FitsS K.bits 0 := by cases K <;> decide
  cases op with
  | append a =>
    simp only [Spec.step]
    split
    · next v h => exact fits_append hf (fits_cons (fits_elem h) (fits_nil K))
    · exact hf
  | extend s => exact fits_absorb hf s _
  | iadd s => exact fits_absorb hf s _
  | insert i a =>
    simp only [Spec.step]
    split
    · exact hf
    · exact hf
    · next h => exact fits_append (fits_take hf _) (fits_cons (fits_elem h) (fits_drop hf _))
  | pop a =>
    simp only [Spec.step]
    split
    · exact hf
    · split
      · exact hf
      · exact fits_append (fits_take hf _) (fits_drop hf _)
  | remove a =>
    simp only [Spec.step]
    split
    · exact hf
    · next l' h =>
      obtain ⟨v, -, hv⟩ := Option.bind_eq_some_iff.1 h
      obtain ⟨p, -, rfl⟩ := Option.map_eq_some_iff.1 hv
      exact fits_append (fits_take hf _) (fits_drop hf _)
  | index a i j =>
    simp only [Spec.step]
    split
    · exact hf
    · exact hf
    · split <;> exact hf
  | count a => exact hf
  | contains a => exact hf
  | get k =>
    simp only [Spec.step]
    split
    · split
      · exact hf
      · split <;> exact hf
    · split <;> exact hf
  | set k v =>
    simp only [Spec.step]
    split
    · split
      · exact hf
      · split
        · exact hf
        · split
          · exact hf
          · next h => exact fits_append (fits_take hf _) (fits_cons (fits_elem h) (fits_drop hf _))
    · split
      · exact hf
      · split
        · exact hf
        · split
          · exact hf
          · exact hf
          · split
            · exact hf
            · next vs h =>
              have hv := fits_allElems h
              split
              · exact fits_append (fits_append (fits_take hf _) hv) (fits_drop hf _)
              · split
                · exact fits_overwrite hf _ _ hv
                · exact hf
  | del k =>
    simp only [Spec.step]
    split
    · split
      · exact hf
      · split
        · exact hf
        · exact fits_append (fits_take hf _) (fits_drop hf _)
    · split
      · exact hf
      · exact fun v hv => hf v (pick_sub _ _ v hv)
  | add s => simp only [Spec.step]; split <;> exact hf
  | mul n => exact hf
  | rmul a =>
    simp only [Spec.step]
    split
    · split <;> exact hf
    · split <;> exact hf
    · exact hf
  | imul n =>
    intro v hv
    simp only [Spec.step, Spec.copies] at hv
    obtain ⟨a, ha, hv⟩ := List.mem_flatten.1 hv
    rw [List.mem_replicate] at ha
    exact hf v (ha.2 ▸ hv)
  | cmp op s => exact hf
  | reverse => exact fun v hv => hf v (List.mem_reverse.1 hv)
  | resize a =>
    simp only [Spec.step]
    split
    · split
      · refine fits_append (fits_take hf _) ?_
        intro v hv
        rw [List.mem_replicate] at hv
        exact hv.2 ▸ hz
      · exact hf
    · exact hf
  | clear => exact fits_nil K
  | copy => exact hf
  | toList => exact hf
  | len => exact hf
  | repr => exact hf

/-! ### Histories -/

theorem agrees_state {o : LOut} {r : Spec.Res} (h : Agrees o r) : o.state? = some r.1 := by
  obtain ⟨l', v⟩ := r
  cases o with
  | ok l a => cases v with
    | ok => exact congrArg some h.1
    | error => exact absurd h id
  | exc l e => cases v with
    | ok => exact absurd h id
    | error => exact congrArg some h.1
  | pending => cases v <;> exact absurd h id
  | ub => cases v <;> exact absurd h id

end Verif.ArrayList
