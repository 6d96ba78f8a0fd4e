import Verif.Lemmas.ObjLinkedList
import Verif.Lemmas.LinkedSession
import Verif.Model.ObjLinkedSession

/-! Helper lemmas: iterators of ObjectLinkedList under API calls. -/

namespace Verif.ObjLinked

open LinkedList (modCount_pushAll)

/-- Every state an outcome leaves has nodes satisfying `P`. -/
def OutAll (P : LState Obj → Prop) (o : OLOut) : Prop := ∀ s, o.state? = some s → P s.list

theorem all_ok {P : LState Obj → Prop} {s : OLState} {r : OVal} (h : P s.list) : OutAll P (.ok s r) := by
  rintro _ ⟨⟩; exact h
theorem all_exc {P : LState Obj → Prop} {s : OLState} {e : Exc} (h : P s.list) : OutAll P (.exc s e) := by
  rintro _ ⟨⟩; exact h
theorem all_pending {P : LState Obj → Prop} {s : OLState} {r : OVal} {e : Exc} (h : P s.list) :
    OutAll P (.pending s r e) := by
  rintro _ ⟨⟩; exact h
theorem all_ub {P : LState Obj → Prop} {u : UB} : OutAll P (.ub u) := by rintro _ ⟨⟩
theorem all_heap {P : LState Obj → Prop} {r : Except UB Heap} {k : Heap → OLOut} (h : ∀ x, OutAll P (k x)) :
    OutAll P (withHeap r k) := by
  cases r with
  | error u => exact all_ub
  | ok x => exact h x

/-- Splits until every leaf is an outcome whose state is known to satisfy the property. -/
macro "oleaves " h:term : tactic => `(tactic| repeat' (first
  | exact all_ub | exact all_exc $h | exact all_ok $h | exact all_pending $h | (refine all_heap fun _ => ?_) | split))

variable {s : OLState}

/-- Reading calls keep the nodes. -/
theorem kept_step {P : LState Obj → Prop} (H : OHost) (strict : Bool) (h : P s.list)
    (ha : ∀ p o, P (s.list.assign p o)) (hr : P s.list.reverse) {op : OOp} (hk : OSizeKept op) :
    OutAll P (step H strict s op) := by
  cases op with
  | index o i j => simp only [step, index]; oleaves h
  | count o => exact all_ok h
  | contains o => simp only [step, contains]; oleaves h
  | get k =>
    cases k with
    | idx a => simp only [step, subscript, getItem]; oleaves h
    | slice sl => simp only [step, subscript]; oleaves h
  | setItem a o => simp only [step, setIdx, setItem]; oleaves (by first | exact h | exact ha _ _)
  | add src => cases src <;> simp only [step, add] <;> oleaves h
  | mul n => simp only [step, mul]; oleaves h
  | rmul a => simp only [step, rmul, mul]; oleaves h
  | cmp op src =>
    simp only [step, ObjLinked.compare]
    cases ObjArray.compare H op ⟨vec s, s.heap⟩ src <;> oleaves h
  | reverse => exact all_ok hr
  | resize a => exact all_exc h
  | copy => simp only [step, copy]; oleaves h
  | toList => simp only [step, toList]; oleaves h
  | len => exact all_ok h
  | _ => exact absurd hk id

/-- Same nodes, same modification count. -/
def SameNodes (s s' : LState Obj) : Prop := s'.ids = s.ids ∧ s'.modCount = s.modCount

theorem sizeKept_step (H : OHost) (strict : Bool) {op : OOp} (hk : OSizeKept op) :
    OutAll (SameNodes s.list) (step H strict s op) :=
  kept_step H strict ⟨rfl, rfl⟩ (fun _ _ => ⟨LState.ids_assign _ _ _, rfl⟩) ⟨LState.ids_reverse _, rfl⟩ hk

theorem modCount_pushNew (xs : List Obj) (s : OLState) : (pushNew xs s).list.modCount = s.list.modCount := by
  induction xs generalizing s with
  | nil => rfl
  | cons o os ih => rw [pushNew, ih]; rfl

theorem wf_pushNew (xs : List Obj) (s : OLState) (h : s.list.WF) : (pushNew xs s).list.WF := by
  induction xs generalizing s with
  | nil => exact h
  | cons o os ih => exact ih _ (LState.wf_push h o)

/-- Well-formed, and either nothing happened to the nodes or the modification count grew. -/
def Recorded (s s' : LState Obj) : Prop := s'.WF ∧ (SameNodes s s' ∨ s.modCount < s'.modCount)

theorem extendIter_recorded (hw : s.list.WF) (xs : List Obj) (f : Option Exc) (r : OVal) :
    OutAll (Recorded s.list) (extendIter true s xs f r) := by
  have : Recorded s.list (pushNew xs s).list.bump :=
    ⟨LState.wf_bump (wf_pushNew xs s hw), .inr (by simp [LState.bump, modCount_pushNew])⟩
  simp only [extendIter, if_true]
  cases f with
  | none => exact all_ok this
  | some e => exact all_exc this

theorem tracked_step (H : OHost) (strict : Bool) (hw : s.list.WF) {op : OOp} (h : OTracked op) :
    OutAll (Recorded s.list) (step H strict s op) := by
  have h0 : Recorded s.list s.list := ⟨hw, .inl ⟨rfl, rfl⟩⟩
  have hb : ∀ s' : LState Obj, s'.WF → s'.modCount = s.list.modCount → Recorded s.list s'.bump :=
    fun s' h1 h2 => ⟨LState.wf_bump h1, .inr (by simp [LState.bump, h2])⟩
  have keep : ∀ op, OSizeKept op → OutAll (Recorded s.list) (step H strict s op) := fun op h =>
    kept_step H strict h0 (fun p o => ⟨LState.wf_assign hw p o, .inl ⟨LState.ids_assign _ _ _, rfl⟩⟩)
      ⟨LState.wf_reverse hw, .inl ⟨LState.ids_reverse _, rfl⟩⟩ h
  cases op with
  | append o => exact all_heap fun _ => all_ok (hb _ (LState.wf_push hw o) rfl)
  | extend src =>
    cases src with
    | same v => exact all_heap fun _ => all_ok (hb _ (LState.wf_pushAll hw v) (modCount_pushAll _ _))
    | self =>
      simp only [step, extend]
      split
      · exact all_ub
      · exact all_heap fun _ => all_ok (hb _ (LState.wf_pushAll hw _) (modCount_pushAll _ _))
    | notIterable => exact all_exc h0
    | iter xs f => exact extendIter_recorded hw _ _ _
    | list xs => exact extendIter_recorded hw xs none .none
    | tuple xs => exact extendIter_recorded hw xs none .none
    | seq xs => exact extendIter_recorded hw xs none .none
    | seqNoLen xs => exact extendIter_recorded hw xs none .none
  | insert i o =>
    simp only [step, insert]
    split
    · exact all_exc h0
    · oleaves (hb _ (LState.wf_insert hw _ _) rfl)
  | pop a =>
    cases a with
    | some a => exact absurd h id
    | none =>
      simp only [step, pop]
      split
      · exact all_exc h0
      · exact all_ok (hb _ (LState.wf_erase hw _) rfl)
  | remove o =>
    simp only [step, remove]
    split
    · exact all_exc h0
    · exact all_heap fun _ => all_ok (hb _ (LState.wf_erase hw _) rfl)
  | _ => exact keep _ h

/-! ### Sessions -/

theorem readMove_mem {it it' : LIter} {l : LState Obj} {o : Obj} (h : it.readMove l = (it', .yield o)) :
    o ∈ l.vals := by
  unfold LIter.readMove at h
  split at h
  · cases h
  · split at h
    · cases h
    · next x hx =>
      have hm : x ∈ l.vals := List.mem_of_getElem? hx
      split at h
      · split at h
        · cases h
        · cases h; exact hm
      · cases h; exact hm

theorem next_mem {it it' : LIter} {l : LState Obj} {o : Obj} (h : it.next l = (it', .yield o)) : o ∈ l.vals := by
  unfold LIter.next at h
  split at h
  · cases h
  · split at h
    · split at h
      · cases hx : l.vals[l.size - 1]? with
        | none => rw [hx] at h; cases h
        | some x =>
          rw [hx] at h
          cases h
          exact List.mem_of_getElem? hx
      · cases h
      · split at h
        · cases h
        · exact readMove_mem h
    · split at h
      · cases h
      · split at h
        · cases h
        · split at h
          · cases h
          · exact readMove_mem h

theorem covered_incref {ext : Obj → Nat} {h h' : Heap} {l : List Obj} {o : Obj} (hc : Covered ext h l)
    (he : h.incref o = .ok h') : Covered ext h' l ∧ h'.imm = h.imm := by
  unfold Heap.incref at he
  by_cases h1 : h.imm o = true
  · rw [if_pos h1] at he
    cases he
    exact ⟨hc, rfl⟩
  · rw [if_neg h1] at he
    by_cases h2 : h.rc o = 0
    · rw [if_pos h2] at he; cases he
    · rw [if_neg h2] at he
      cases he
      refine ⟨fun x hx => ?_, rfl⟩
      have := hc x hx
      simp only [Heap.set]
      split
      · next e => subst e; omega
      · exact this

theorem call_ok (H : OHost) (strict : Bool) {ext : Obj → Nat} (hc : Covered ext s.heap (vec s)) {op : OOp}
    (hok : OpOk H (vec s) op) (hh : Held ext s.heap op) :
    ∃ s', (step H strict s op).state? = some s' ∧ vec s' = (Spec.ostep H (vec s) op).1 ∧
      Covered ext s'.heap (vec s') ∧ s'.heap.imm = s.heap.imm := by
  obtain ⟨s1, e1, v1, a1⟩ := (step_does H strict hc hok hh).out
  refine ⟨s1, ?_, v1, ?_, a1.1⟩
  · rw [e1]
    cases (Spec.ostep H (vec s) op).2 <;> rfl
  · rw [v1]
    exact ObjArray.Covered.mono (ObjArray.covered_after (s := arr s) hc a1) (fun o => Nat.le_add_right _ _)

theorem session_stop {H : OHost} {strict : Bool} {it it' : LIter} {es : List OSEv}
    (h : it.next s.list = (it', .stop)) :
    session H strict s it (.next :: es) = .stop :: session H strict s it' es := by
  rw [session, h]

theorem session_yield {H : OHost} {strict : Bool} {it it' : LIter} {es : List OSEv} {o : Obj} {h' : Heap}
    (h : it.next s.list = (it', .yield o)) (hi : s.heap.incref o = .ok h') :
    session H strict s it (.next :: es) = .yield o :: session H strict ⟨s.list, h'⟩ it' es := by
  rw [session, h]
  simp only
  rw [hi]

theorem session_exact (H : OHost) (strict : Bool) {ext : Obj → Nat} (es : List OSEv) : ∀ (s : OLState) (it : LIter)
    (i : Nat), s.list.WF → Covered ext s.heap (vec s) → (∀ op ∈ OSEv.calls es, OSizeKept op ∧ Held ext s.heap op) →
    HistoryOk H (vec s) (OSEv.calls es) → it.Exact s.list i →
    session H strict s it es = Spec.iterRun i (Spec.ocontentsAt H (vec s) es) ∧
      ∀ l ∈ Spec.ocontentsAt H (vec s) es, l.length = s.list.size := by
  induction es with
  | nil => intros; exact ⟨rfl, by simp [Spec.ocontentsAt]⟩
  | cons e es ih =>
    intro s it i hw hc hk ho he
    cases e with
    | call op =>
      have hk1 := hk op (by simp [OSEv.calls])
      have hk2 : ∀ op ∈ OSEv.calls es, OSizeKept op ∧ Held ext s.heap op := fun o h => hk o (by
        simp only [OSEv.calls, List.filterMap_cons] at h ⊢
        exact List.mem_cons_of_mem _ h)
      have ho' : OpOk H (vec s) op ∧ HistoryOk H (Spec.ostep H (vec s) op).1 (OSEv.calls es) := ho
      obtain ⟨s', h1, h2, h3, h4⟩ := call_ok H strict hc ho'.1 hk1.2
      obtain ⟨hid, hmc⟩ := sizeKept_step H strict hk1.1 s' h1
      have hsz : s'.list.size = s.list.size := by rw [← LState.length_ids, ← LState.length_ids, hid]
      have hx : it.Exact s'.list i := by
        subst he; simp only [LIter.Exact, LIter.atPos, hid, hmc]
      have hw' := (tracked_step H strict hw (op := op) (by
        cases op <;> first | exact hk1.1 | exact trivial | exact absurd hk1.1 id) s' h1).1
      have := ih s' it i hw' h3 (fun o h => ⟨(hk2 o h).1, fun x hx => by rw [h4]; exact (hk2 o h).2 x hx⟩)
        (by rw [h2]; exact ho'.2) hx
      simp only [session, h1, Spec.ocontentsAt]
      rw [← h2, ← hsz]
      exact this
    | next =>
      obtain ⟨h1, h2⟩ := LIter.next_exact hw he
      simp only [Spec.ocontentsAt]
      by_cases hi : i < s.list.size
      · obtain ⟨hy, hx⟩ := h1 hi
        have hmem : s.list.vals[i]'(by simpa using hi) ∈ vec s := List.getElem_mem _
        obtain ⟨h', hinc, -⟩ := Heap.incref_ok (hc.live hmem)
        obtain ⟨hc', himm⟩ := covered_incref hc hinc
        have hr := ih ⟨s.list, h'⟩ (it.next s.list).1 (i + 1) hw hc'
          (fun o h => ⟨(hk o h).1, fun x hx => by show h'.imm x = true ∨ _; rw [himm]; exact (hk o h).2 x hx⟩) ho hx
        refine ⟨?_, fun l hl' => ?_⟩
        · rw [session_yield (it' := (it.next s.list).1) (by rw [← hy]) hinc, Spec.iterRun,
            show (vec s)[i]? = some (s.list.vals[i]'(by simpa using hi)) from LIter.getElem?_vals hi]
          simp only
          rw [hr.1]
          rfl
        · rcases List.mem_cons.1 hl' with rfl | hl'
          · simp [vec]
          · exact hr.2 l hl'
      · have hr := ih s it i hw hc hk ho he
        refine ⟨?_, fun l hl' => ?_⟩
        · rw [session_stop (h2 (by omega)), Spec.iterRun, List.getElem?_eq_none (by simp [vec]; omega)]
          simp only
          rw [hr.1, LinkedList.iterRun_short]
          intro l hl'
          have := hr.2 l hl'
          omega
        · rcases List.mem_cons.1 hl' with rfl | hl'
          · simp [vec]
          · exact hr.2 l hl'

theorem session_safe (H : OHost) (strict : Bool) {ext : Obj → Nat} (es : List OSEv) : ∀ (s : OLState) (it : LIter),
    s.list.WF → Covered ext s.heap (vec s) → (∀ op ∈ OSEv.calls es, OTracked op ∧ Held ext s.heap op) →
    HistoryOk H (vec s) (OSEv.calls es) → it.Inv s.list → it.cacheMod ≤ s.list.modCount →
    (session H strict s it es).length = (es.filter (· == .next)).length ∧
      ∀ a ∈ session H strict s it es, ∀ u, a ≠ .ub u := by
  induction es with
  | nil => intro s it _ _ _ _ _ _; exact ⟨rfl, by simp [session]⟩
  | cons e es ih =>
    intro s it hw hc hk ho hi hm
    cases e with
    | call op =>
      have hk1 := hk op (by simp [OSEv.calls])
      have hk2 : ∀ op ∈ OSEv.calls es, OTracked op ∧ Held ext s.heap op := fun o h => hk o (by
        simp only [OSEv.calls, List.filterMap_cons] at h ⊢
        exact List.mem_cons_of_mem _ h)
      have ho' : OpOk H (vec s) op ∧ HistoryOk H (Spec.ostep H (vec s) op).1 (OSEv.calls es) := ho
      obtain ⟨s', h1, h2, h3, h4⟩ := call_ok H strict hc ho'.1 hk1.2
      obtain ⟨hw', hr⟩ := tracked_step H strict hw hk1.1 s' h1
      simp only [session, h1]
      obtain ⟨hrv, i, hi1, hi2⟩ := hi
      have := ih s' it hw' h3 (fun o h => ⟨(hk2 o h).1, fun x hx => by rw [h4]; exact (hk2 o h).2 x hx⟩)
        (by rw [h2]; exact ho'.2) ⟨hrv, i, hi1, fun hc => ?_⟩ ?_
      · refine ⟨?_, this.2⟩
        rw [this.1]
        rfl
      · rcases hr with ⟨hid, hmc⟩ | hlt
        · obtain ⟨p, hp1, hp2, hp3⟩ := hi2 (by omega)
          refine ⟨p, hp1, ?_, ?_⟩
          · rw [← LState.length_ids, hid, LState.length_ids]; exact hp2
          · rw [hp3, LIter.atPos, LIter.atPos, hid]
        · omega
      · rcases hr with ⟨_, hmc⟩ | hlt <;> omega
    | next =>
      obtain ⟨h1, h2, h3⟩ := LIter.next_inv hw hi hm
      cases hn : it.next s.list with
      | mk it' a =>
        rw [hn] at h1 h2 h3
        cases a with
        | ub u => exact absurd rfl (h3 u)
        | stop =>
          rw [session_stop hn]
          have := ih s it' hw hc hk ho h1 h2
          refine ⟨?_, ?_⟩
          · rw [List.length_cons, this.1]; rfl
          · intro a ha u
            rcases List.mem_cons.1 ha with rfl | ha
            · simp
            · exact this.2 a ha u
        | yield o =>
          obtain ⟨h', hinc, -⟩ := Heap.incref_ok (hc.live (next_mem hn))
          obtain ⟨hc', himm⟩ := covered_incref hc hinc
          rw [session_yield hn hinc]
          have := ih ⟨s.list, h'⟩ it' hw hc'
            (fun o h => ⟨(hk o h).1, fun x hx => by show h'.imm x = true ∨ _; rw [himm]; exact (hk o h).2 x hx⟩)
            ho h1 h2
          refine ⟨?_, ?_⟩
          · rw [List.length_cons, this.1]; rfl
          · intro a ha u
            rcases List.mem_cons.1 ha with rfl | ha
            · simp
            · exact this.2 a ha u

end Verif.ObjLinked
