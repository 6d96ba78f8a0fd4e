import Verif.Lemmas.LinkedSession
import Verif.Lemmas.ObjLinkedSession
import Verif.Spec.IterWalk

/-! # The answers of linked list iterators while the list is changed -/

namespace Verif.LIter

variable {α : Type}

/-- The forward iterator stands at `i`, its node at `p`, unless it is late. -/
structure Fwd (it : LIter) (s : LState α) (i p : Nat) (late : Bool) : Prop where
  rev : it.reversed = false
  idx : it.index = some i
  ahead : p ≤ i
  fresh : late = false → it.cacheMod = s.modCount ∧ it.cache = atPos s p
  stale : late = true → it.cacheMod < s.modCount

theorem fwd_create (s : LState α) : Fwd (create s false) s 0 0 false :=
  ⟨rfl, rfl, Nat.le_refl _, fun _ => ⟨rfl, rfl⟩, fun h => (nomatch h)⟩

/-- The list changed. -/
theorem Fwd.call {it : LIter} {s s' : LState α} {i p : Nat} {late b : Bool} (h : Fwd it s i p late)
    (hs : b = false → s'.ids = s.ids ∧ s'.modCount = s.modCount) (hb : b = true → s.modCount < s'.modCount) :
    Fwd it s' i p (late || b) := by
  refine ⟨h.rev, h.idx, h.ahead, fun hl => ?_, fun hl => ?_⟩
  · obtain ⟨h1, h2⟩ := Bool.or_eq_false_iff.1 hl
    obtain ⟨q1, q2⟩ := h.fresh h1
    obtain ⟨r1, r2⟩ := hs h2
    exact ⟨by omega, by rw [q2]; simp only [atPos, r1]⟩
  · cases b with
    | true =>
      have := hb rfl
      cases late with
      | true => have := h.stale rfl; omega
      | false => have := (h.fresh rfl).1; omega
    | false =>
      have := (hs rfl).2
      have := h.stale (by simpa using hl)
      omega

theorem Fwd.over {it : LIter} {s : LState α} {i p : Nat} {late : Bool} (h : Fwd it s i p late) (hi : s.size ≤ i) :
    it.next s = (it, .stop) := by
  unfold next
  split
  · rfl
  · simp only [h.rev, h.idx, Bool.false_eq_true, if_false, ge_iff_le, if_pos hi]

theorem Fwd.late {it : LIter} {s : LState α} {i p : Nat} (hw : s.WF) (h : Fwd it s i p true) (hi : i < s.size) :
    ∃ it', it.next s = (it', .yield (s.vals[i]'(by simpa using hi))) ∧ Fwd it' s (i + 2) (i + 1) false := by
  have hm : ¬ it.cacheMod = s.modCount := by have := h.stale rfl; omega
  refine ⟨⟨some (i + 2), atPos s (i + 1), s.modCount, false⟩, ?_, rfl, rfl, by omega, fun _ => ⟨rfl, rfl⟩, fun h => (nomatch h)⟩
  unfold next
  rw [if_neg (by omega)]
  simp only [h.rev, h.idx, Bool.false_eq_true, if_false]
  rw [if_neg (by omega)]
  simp only [updateCache, hm, if_false, listAt_eq, Nat.min_eq_left (Nat.le_of_lt hi), readMove, locate_atPos hw hi,
    getElem?_vals hi, h.rev, Bool.false_eq_true, Option.map_some]

theorem Fwd.plain {it : LIter} {s : LState α} {i p : Nat} (hw : s.WF) (h : Fwd it s i p false) (hi : i < s.size) :
    ∃ it', it.next s = (it', .yield (s.vals[p]'(by have := h.ahead; simp; omega))) ∧ Fwd it' s (i + 1) (p + 1) false := by
  obtain ⟨q1, q2⟩ := h.fresh rfl
  have hp : p < s.size := by have := h.ahead; omega
  refine ⟨⟨some (i + 1), atPos s (p + 1), s.modCount, false⟩, ?_, rfl, rfl, by have := h.ahead; omega,
    fun _ => ⟨rfl, rfl⟩, fun h => (nomatch h)⟩
  unfold next
  rw [if_neg (by omega)]
  simp only [h.rev, h.idx, Bool.false_eq_true, if_false]
  rw [if_neg (by omega)]
  simp only [updateCache, q1, if_true, readMove, q2, locate_atPos hw hp, getElem?_vals hp, h.rev, h.idx, Bool.false_eq_true,
    if_false, Option.map_some]

/-- The reverse iterator. -/
structure Bwd (it : LIter) (s : LState α) (i : Option Nat) (p : Nat) (late : Bool) : Prop where
  rev : it.reversed = true
  idx : it.index = i
  fresh : late = false → it.cacheMod = s.modCount ∧ it.cache = atPos s p ∧ ∀ k, i = some (k + 1) → k < p ∧ p < s.size
  stale : late = true → it.cacheMod < s.modCount

theorem bwd_create (s : LState α) : Bwd (create s true) s (some (s.size - 1)) (s.size - 1) false := by
  refine ⟨rfl, ?_, fun _ => ⟨rfl, rfl, fun k hk => ?_⟩, fun h => (nomatch h)⟩
  · simp only [create, if_true]
    split <;> simp_all
  · simp only [Option.some.injEq] at hk
    omega

theorem Bwd.call {it : LIter} {s s' : LState α} {i : Option Nat} {p : Nat} {late b : Bool} (h : Bwd it s i p late)
    (hs : b = false → s'.ids = s.ids ∧ s'.modCount = s.modCount) (hb : b = true → s.modCount < s'.modCount) :
    Bwd it s' i p (late || b) := by
  refine ⟨h.rev, h.idx, fun hl => ?_, fun hl => ?_⟩
  · obtain ⟨h1, h2⟩ := Bool.or_eq_false_iff.1 hl
    obtain ⟨q1, q2, q3⟩ := h.fresh h1
    obtain ⟨r1, r2⟩ := hs h2
    refine ⟨by omega, by rw [q2]; simp only [atPos, r1], fun k hk => ?_⟩
    have hsz : s'.size = s.size := by rw [← LState.length_ids, ← LState.length_ids, r1]
    have := q3 k hk
    omega
  · cases b with
    | true =>
      have := hb rfl
      cases late with
      | true => have := h.stale rfl; omega
      | false => have := (h.fresh rfl).1; omega
    | false =>
      have := (hs rfl).2
      have := h.stale (by simpa using hl)
      omega

theorem Bwd.empty {it : LIter} {s : LState α} (h0 : s.size = 0) : it.next s = (it, .stop) := by
  unfold next
  rw [if_pos h0]

theorem Bwd.over {it : LIter} {s : LState α} {p : Nat} {late : Bool} (h : Bwd it s none p late) :
    it.next s = (it, .stop) := by
  unfold next
  split
  · rfl
  · simp only [h.rev, h.idx, if_true]

theorem Bwd.last {it : LIter} {s : LState α} {p : Nat} {late : Bool} {z : α} (h : Bwd it s (some 0) p late)
    (hz : s.vals.getLast? = some z) :
    ∃ it', it.next s = (it', .yield z) ∧ Bwd it' s none p late := by
  have h0 : ¬ s.size = 0 := by
    intro h0
    have : s.vals = [] := List.eq_nil_of_length_eq_zero (by simpa using h0)
    rw [this] at hz
    cases hz
  have hv : s.vals[s.size - 1]? = some z := by
    rw [List.getLast?_eq_getElem?] at hz
    simpa using hz
  refine ⟨{ it with index := none }, ?_, h.rev, rfl, fun hl => ?_, h.stale⟩
  · unfold next
    rw [if_neg h0]
    simp only [h.rev, h.idx, if_true, hv]
  · obtain ⟨q1, q2, -⟩ := h.fresh hl
    exact ⟨q1, q2, fun k hk => (nomatch hk)⟩

theorem Bwd.late {it : LIter} {s : LState α} {i p : Nat} (hw : s.WF) (h : Bwd it s (some (i + 1)) p true)
    (hi : i + 1 < s.size) :
    ∃ it', it.next s = (it', .yield (s.vals[i + 1]'(by simpa using hi))) ∧
      Bwd it' s (if i = 0 then none else some (i - 1)) i false := by
  have hm : ¬ it.cacheMod = s.modCount := by have := h.stale rfl; omega
  refine ⟨⟨if i = 0 then none else some (i - 1), atPos s i, s.modCount, true⟩, ?_, rfl, rfl,
    fun _ => ⟨rfl, rfl, fun k hk => ?_⟩, fun h => (nomatch h)⟩
  · unfold next
    rw [if_neg (by omega)]
    simp only [h.rev, h.idx, if_true]
    simp only [updateCache, hm, if_false, listAt_eq, Nat.min_eq_left (Nat.le_of_lt hi), readMove, locate_atPos hw hi,
      getElem?_vals hi, h.rev, if_true, Nat.add_one_ne_zero, Nat.add_sub_cancel]
    cases i <;> simp [decIndex]
  · split at hk
    · cases hk
    · simp only [Option.some.injEq] at hk
      omega

theorem Bwd.late_ub {it : LIter} {s : LState α} {i p : Nat} (h : Bwd it s (some (i + 1)) p true) (h0 : s.size ≠ 0)
    (hi : s.size ≤ i + 1) : (it.next s).2 = .ub .outOfBounds := by
  have hm : ¬ it.cacheMod = s.modCount := by have := h.stale rfl; omega
  unfold next
  rw [if_neg h0]
  simp only [h.rev, h.idx, if_true]
  have hc : atPos s s.size = none := by
    unfold atPos
    exact List.getElem?_eq_none (by simp)
  simp only [updateCache, hm, if_false, listAt_eq, Nat.min_eq_right hi, readMove, hc, locate]

theorem Bwd.plain {it : LIter} {s : LState α} {i p : Nat} (hw : s.WF) (h : Bwd it s (some (i + 1)) p false) :
    ∃ (hp : p < s.size) (it' : LIter), it.next s = (it', .yield (s.vals[p]'(by simpa using hp))) ∧
      Bwd it' s (some i) (p - 1) false := by
  obtain ⟨q1, q2, q3⟩ := h.fresh rfl
  obtain ⟨r1, r2⟩ := q3 i rfl
  refine ⟨r2, ⟨some i, atPos s (p - 1), s.modCount, true⟩, ?_, rfl, rfl, fun _ => ⟨rfl, rfl, fun k hk => ?_⟩,
    fun h => (nomatch h)⟩
  · unfold next
    rw [if_neg (by omega)]
    simp only [h.rev, h.idx, if_true]
    simp only [updateCache, q1, if_true, readMove, q2, locate_atPos hw r2, getElem?_vals r2, h.rev, h.idx]
    cases p with
    | zero => omega
    | succ p => simp [decIndex]
  · simp only [Option.some.injEq] at hk
    omega

end Verif.LIter

namespace Verif.LinkedList

/-- What a call of the domain does to the nodes, by whether it is noticed. -/
theorem noticed_step {cfg : Cfg} {strict : Bool} {s s' : S} {op : Op} (ht : Tracked op) (hl : AllFits .i32 s.vals)
    (hok : OpOk cfg s.vals op) (hs : (step cfg strict s op).state? = some s') :
    (Spec.noticed s.vals op = false → s'.ids = s.ids ∧ s'.modCount = s.modCount) ∧
    (Spec.noticed s.vals op = true → s.modCount < s'.modCount) := by
  have hag := step_agrees cfg strict s op hl hok
  have keep : SizeKept op → Spec.noticed s.vals op = false →
      (Spec.noticed s.vals op = false → s'.ids = s.ids ∧ s'.modCount = s.modCount) ∧
      (Spec.noticed s.vals op = true → s.modCount < s'.modCount) := fun h1 h2 =>
    ⟨fun _ => sizeKept_step cfg strict s op h1 s' hs, fun h => by rw [h2] at h; cases h⟩
  have counts : (∀ s'' r, step cfg strict s op = .ok s'' r → s.modCount < s''.modCount) →
      (∀ s'' e, step cfg strict s op = .exc s'' e → s'' = s) →
      Spec.noticed s.vals op = Spec.succeeded (Spec.step 32 s.vals op).2 →
      (Spec.noticed s.vals op = false → s'.ids = s.ids ∧ s'.modCount = s.modCount) ∧
      (Spec.noticed s.vals op = true → s.modCount < s'.modCount) := by
    intro h1 h2 h3
    rw [h3]
    revert hag
    generalize Spec.step 32 s.vals op = res
    obtain ⟨l, r⟩ := res
    cases ho : step cfg strict s op with
    | ub u => exact fun h => absurd h id
    | pending a b c => exact fun h => absurd h id
    | ok s'' a =>
      cases r with
      | error e => exact fun h => absurd h id
      | ok v =>
        intro _
        rw [ho] at hs
        cases hs
        exact ⟨fun h => (nomatch h), fun _ => h1 _ _ ho⟩
    | exc s'' e =>
      cases r with
      | ok v => exact fun h => absurd h id
      | error e' =>
        intro _
        rw [ho] at hs
        cases hs
        obtain rfl := h2 _ _ ho
        exact ⟨fun _ => ⟨rfl, rfl⟩, fun h => (nomatch h)⟩
  cases op with
  | append a =>
    refine ⟨fun h => (nomatch h), fun _ => ?_⟩
    simp only [step, append] at hs
    split at hs <;> cases hs <;> simp [LState.bump, LState.push]
  | extend src =>
    cases src with
    | notIterable => cases hs; exact ⟨fun _ => ⟨rfl, rfl⟩, fun h => (nomatch h)⟩
    | self => exact absurd ht id
    | same v =>
      cases hs
      exact ⟨fun h => (nomatch h), fun _ => by simp [LState.bump, modCount_pushAll]⟩
    | iter xs f | list xs | tuple xs | seq xs | seqNoLen xs =>
      refine ⟨fun h => (nomatch h), fun _ => ?_⟩
      simp only [step, extendWith, pushItems] at hs
      obtain ⟨s1, h1, -⟩ := pushLoop_good xs s ht
      have hm := modCount_pushLoop xs s
      rw [h1] at hm
      rw [h1] at hs
      simp only [Bool.and_self, if_true] at hs hm
      first
        | (cases hs; simp only [LState.bump]; omega)
        | (split at hs <;> cases hs <;> simp only [LState.bump] <;> omega)
  | insert i a =>
    refine counts ?_ ?_ rfl
    · intro s'' r h
      simp only [step, insert] at h
      split at h
      · cases h
      · cases h
      · split at h
        · cases h
        · cases h; simp [LState.bump, LState.insert]
    · intro s'' e h
      simp only [step, insert] at h
      split at h
      · cases h; rfl
      · cases h; rfl
      · split at h <;> cases h
  | pop a =>
    cases a with
    | some a => exact absurd ht id
    | none =>
      refine counts ?_ ?_ rfl
      · intro s'' r h
        simp only [step, pop] at h
        split at h
        · cases h
        · cases h; simp [LState.bump, LState.erase]
      · intro s'' e h
        simp only [step, pop] at h
        split at h <;> cases h
        rfl
  | remove a =>
    refine counts ?_ ?_ rfl
    · intro s'' r h
      simp only [step, remove] at h
      split at h
      · cases h
      · split at h
        · cases h
        · cases h; simp [LState.bump, LState.erase]
    · intro s'' e h
      simp only [step, remove] at h
      split at h
      · cases h; rfl
      · split at h
        · cases h; rfl
        · cases h
  | _ => exact keep ht rfl

theorem session_walk (cfg : Cfg) (strict : Bool) (es : List Ev) : ∀ (s : S) (it : LIter) (i p : Nat) (late b : Bool), s.WF →
    AllFits .i32 s.vals → (∀ op ∈ Ev.calls es, Tracked op) → HistoryOk cfg s.vals (Ev.calls es) →
    it.Fwd s i p (late || b) →
    session cfg strict s it es = Spec.walk i p late (Spec.steps s.vals b es) := by
  induction es with
  | nil => intros; rfl
  | cons e es ih =>
    intro s it i p late b hw hl hk ho hf
    cases e with
    | call op =>
      have hk1 : Tracked op := hk op (by simp [Ev.calls])
      have hk2 : ∀ op ∈ Ev.calls es, Tracked op := fun o h => hk o (by
        simp only [Ev.calls, List.filterMap_cons] at h ⊢
        exact List.mem_cons_of_mem _ h)
      have ho' : OpOk cfg s.vals op ∧ HistoryOk cfg (Spec.step 32 s.vals op).1 (Ev.calls es) := ho
      obtain ⟨s', h1, h2⟩ := agrees_step (strict := strict) hl ho'.1
      obtain ⟨n1, n2⟩ := noticed_step (strict := strict) hk1 hl ho'.1 h1
      have hfit : AllFits .i32 s'.vals := by rw [h2]; exact ArrayList.spec_fits .i32 s.vals op hl
      simp only [session, h1, Spec.steps]
      rw [← h2]
      refine ih s' it i p late _ (step_wf cfg strict s op hw s' h1) hfit hk2 (by rw [h2]; exact ho'.2) ?_
      rw [← Bool.or_assoc]
      exact hf.call n1 n2
    | next =>
      rw [Spec.steps, Spec.walk]
      by_cases hi : s.vals.length ≤ i
      · rw [if_pos hi, session_next (hf.over (by simpa using hi)) (by simp),
          ih s it i p (late || b) false hw hl hk ho (by rw [Bool.or_false]; exact hf)]
      · rw [if_neg hi]
        have hi' : i < s.size := by simpa using hi
        cases hlb : late || b with
        | true =>
          rw [hlb] at hf
          obtain ⟨it', e1, f1⟩ := hf.late hw hi'
          rw [session_next e1 (by simp), LIter.getElem?_vals hi']
          simp only [if_true]
          rw [ih s it' (i + 2) (i + 1) false false hw hl hk ho f1]
        | false =>
          rw [hlb] at hf
          obtain ⟨it', e1, f1⟩ := hf.plain hw hi'
          have hp : p < s.size := by have := hf.ahead; omega
          rw [session_next e1 (by simp), LIter.getElem?_vals hp]
          simp only [Bool.false_eq_true, if_false]
          rw [ih s it' (i + 1) (p + 1) false false hw hl hk ho f1]

theorem session_walkBack (cfg : Cfg) (strict : Bool) (es : List Ev) : ∀ (s : S) (it : LIter) (i : Option Nat) (p : Nat)
    (late b : Bool), s.WF →
    AllFits .i32 s.vals → (∀ op ∈ Ev.calls es, Tracked op) → HistoryOk cfg s.vals (Ev.calls es) →
    it.Bwd s i p (late || b) →
    session cfg strict s it es = Spec.walkBack i p late (Spec.steps s.vals b es) := by
  induction es with
  | nil => intros; rfl
  | cons e es ih =>
    intro s it i p late b hw hl hk ho hf
    cases e with
    | call op =>
      have hk1 : Tracked op := hk op (by simp [Ev.calls])
      have hk2 : ∀ op ∈ Ev.calls es, Tracked op := fun o h => hk o (by
        simp only [Ev.calls, List.filterMap_cons] at h ⊢
        exact List.mem_cons_of_mem _ h)
      have ho' : OpOk cfg s.vals op ∧ HistoryOk cfg (Spec.step 32 s.vals op).1 (Ev.calls es) := ho
      obtain ⟨s', h1, h2⟩ := agrees_step (strict := strict) hl ho'.1
      obtain ⟨n1, n2⟩ := noticed_step (strict := strict) hk1 hl ho'.1 h1
      have hfit : AllFits .i32 s'.vals := by rw [h2]; exact ArrayList.spec_fits .i32 s.vals op hl
      simp only [session, h1, Spec.steps]
      rw [← h2]
      refine ih s' it i p late _ (step_wf cfg strict s op hw s' h1) hfit hk2 (by rw [h2]; exact ho'.2) ?_
      rw [← Bool.or_assoc]
      exact hf.call n1 n2
    | next =>
      rw [Spec.steps, Spec.walkBack]
      cases hz : s.vals.getLast? with
      | none =>
        have h0 : s.size = 0 := by
          have := List.getLast?_eq_none_iff.1 hz
          rw [← LState.length_vals, this]; rfl
        rw [session_next (LIter.Bwd.empty h0) (by simp),
          ih s it i p (late || b) false hw hl hk ho (by rw [Bool.or_false]; exact hf)]
      | some z =>
        have h0 : s.size ≠ 0 := by
          intro h0
          have : s.vals = [] := List.eq_nil_of_length_eq_zero (by simpa using h0)
          rw [this] at hz
          cases hz
        cases i with
        | none =>
          rw [session_next hf.over (by simp), ih s it none p (late || b) false hw hl hk ho (by rw [Bool.or_false]; exact hf)]
        | some i =>
          cases i with
          | zero =>
            obtain ⟨it', e1, f1⟩ := hf.last hz
            rw [session_next e1 (by simp), ih s it' none p (late || b) false hw hl hk ho (by rw [Bool.or_false]; exact f1)]
          | succ i =>
            cases hlb : late || b with
            | true =>
              rw [hlb] at hf
              simp only [if_true]
              by_cases hi : i + 1 < s.size
              · obtain ⟨it', e1, f1⟩ := hf.late hw hi
                rw [session_next e1 (by simp), LIter.getElem?_vals hi]
                simp only
                rw [ih s it' _ i false false hw hl hk ho f1]
              · rw [session_ub (hf.late_ub h0 (by omega)), List.getElem?_eq_none (by simp; omega)]
            | false =>
              rw [hlb] at hf
              obtain ⟨hp, it', e1, f1⟩ := hf.plain hw
              simp only [Bool.false_eq_true, if_false]
              rw [session_next e1 (by simp), LIter.getElem?_vals hp]
              simp only
              rw [ih s it' (some i) (p - 1) false false hw hl hk ho f1]

end Verif.LinkedList

namespace Verif.ObjLinked

variable {s : OLState}

/-- What a call of the domain does to the nodes, by whether it is noticed. -/
theorem noticed_step (H : OHost) (strict : Bool) {ext : Obj → Nat} (hc : Covered ext s.heap (vec s)) {op : OOp}
    (ht : OTracked op) (hok : OpOk H (vec s) op) (hh : Held ext s.heap op) {s' : OLState}
    (hs : (step H strict s op).state? = some s') :
    (Spec.onoticed H (vec s) op = false → s'.list.ids = s.list.ids ∧ s'.list.modCount = s.list.modCount) ∧
    (Spec.onoticed H (vec s) op = true → s.list.modCount < s'.list.modCount) := by
  obtain ⟨s1, e1, -, -⟩ := (step_does H strict hc hok hh).out
  have keep : OSizeKept op → Spec.onoticed H (vec s) op = false →
      (Spec.onoticed H (vec s) op = false → s'.list.ids = s.list.ids ∧ s'.list.modCount = s.list.modCount) ∧
      (Spec.onoticed H (vec s) op = true → s.list.modCount < s'.list.modCount) := fun h1 h2 =>
    ⟨fun _ => sizeKept_step H strict h1 s' hs, fun h => by rw [h2] at h; cases h⟩
  have counts : (∀ s'' r, step H strict s op = .ok s'' r → s.list.modCount < s''.list.modCount) →
      (∀ s'' e, step H strict s op = .exc s'' e → s''.list = s.list) →
      Spec.onoticed H (vec s) op = Spec.succeeded (Spec.ostep H (vec s) op).2 →
      (Spec.onoticed H (vec s) op = false → s'.list.ids = s.list.ids ∧ s'.list.modCount = s.list.modCount) ∧
      (Spec.onoticed H (vec s) op = true → s.list.modCount < s'.list.modCount) := by
    intro h1 h2 h3
    rw [h3]
    revert e1
    generalize (Spec.ostep H (vec s) op).2 = r
    cases r with
    | error e =>
      intro e1
      rw [e1] at hs
      cases hs
      rw [h2 _ _ e1]
      exact ⟨fun _ => ⟨rfl, rfl⟩, fun h => (nomatch h)⟩
    | ok v =>
      intro e1
      rw [e1] at hs
      cases hs
      exact ⟨fun h => (nomatch h), fun _ => h1 _ _ e1⟩
  have grows : Spec.onoticed H (vec s) op = true →
      OutAll (fun l => s.list.modCount < l.modCount) (step H strict s op) →
      (Spec.onoticed H (vec s) op = false → s'.list.ids = s.list.ids ∧ s'.list.modCount = s.list.modCount) ∧
      (Spec.onoticed H (vec s) op = true → s.list.modCount < s'.list.modCount) := fun h1 h2 =>
    ⟨fun h => by rw [h1] at h; (cases h), fun _ => h2 s' hs⟩
  have iterGrows : ∀ xs f r, OutAll (fun l => s.list.modCount < l.modCount) (extendIter true s xs f r) := by
    intro xs f r
    simp only [extendIter, if_true]
    have : s.list.modCount < (pushNew xs s).list.bump.modCount := by simp [LState.bump, modCount_pushNew]
    cases f with
    | none => exact all_ok this
    | some e => exact all_exc this
  cases op with
  | append o => exact grows rfl (all_heap fun _ => all_ok (by simp [LState.bump, LState.push]))
  | extend src =>
    cases src with
    | same v => exact grows rfl (all_heap fun _ => all_ok (by simp [LState.bump, LinkedList.modCount_pushAll]))
    | self =>
      refine grows rfl ?_
      simp only [step, extend]
      split
      · exact all_ub
      · exact all_heap fun _ => all_ok (by simp [LState.bump, LinkedList.modCount_pushAll])
    | notIterable =>
      cases hs
      exact ⟨fun _ => ⟨rfl, rfl⟩, fun h => (nomatch h)⟩
    | iter xs f => exact grows rfl (iterGrows _ _ _)
    | list xs | tuple xs | seq xs | seqNoLen xs => exact grows rfl (iterGrows xs none .none)
  | insert i o =>
    refine counts ?_ ?_ rfl
    · intro s'' r h
      have : OutAll (fun l => s.list.modCount < l.modCount ∨ ∃ e, step H strict s (.insert i o) = .exc s e)
          (step H strict s (.insert i o)) := by
        simp only [step, insert]
        split
        · exact all_exc (.inr ⟨_, rfl⟩)
        · oleaves (.inl (by simp [LState.bump, LState.insert]))
      rcases this s'' (by rw [h]; rfl) with h1 | ⟨e, h1⟩
      · exact h1
      · rw [h1] at h; cases h
    · intro s'' e h
      simp only [step, insert] at h
      split at h
      · cases h; rfl
      · simp only [withHeap] at h
        repeat' (first | cases h | split at h)
  | pop a =>
    cases a with
    | some a => exact absurd ht id
    | none =>
      refine counts ?_ ?_ rfl
      · intro s'' r h
        simp only [step, pop] at h
        split at h
        · cases h
        · cases h; simp [LState.bump, LState.erase]
      · intro s'' e h
        simp only [step, pop] at h
        split at h <;> cases h
        rfl
  | remove o =>
    refine counts ?_ ?_ rfl
    · intro s'' r h
      simp only [step, remove, withHeap] at h
      split at h
      · cases h
      · split at h
        · cases h
        · cases h; simp [LState.bump, LState.erase]
    · intro s'' e h
      simp only [step, remove, withHeap] at h
      split at h
      · cases h; rfl
      · split at h <;> cases h
  | _ => exact keep ht rfl

theorem session_ub {H : OHost} {strict : Bool} {it : LIter} {es : List OSEv} {u : UB}
    (h : (it.next s.list).2 = .ub u) : session H strict s it (.next :: es) = [.ub u] := by
  rw [session]
  cases hn : it.next s.list with
  | mk it' a =>
    rw [hn] at h
    simp only at h
    subst h
    rfl

theorem session_walk (H : OHost) (strict : Bool) {ext : Obj → Nat} (es : List OSEv) : ∀ (s : OLState) (it : LIter)
    (i p : Nat) (late b : Bool), s.list.WF → Covered ext s.heap (vec s) →
    (∀ op ∈ OSEv.calls es, OTracked op ∧ Held ext s.heap op) →
    HistoryOk H (vec s) (OSEv.calls es) → it.Fwd s.list i p (late || b) →
    session H strict s it es = Spec.walk i p late (Spec.osteps H (vec s) b es) := by
  induction es with
  | nil => intros; rfl
  | cons e es ih =>
    intro s it i p late b hw hc hk ho hf
    cases e with
    | call op =>
      have hk1 := hk op (by simp [OSEv.calls])
      have hk2 : ∀ op ∈ OSEv.calls es, OTracked op ∧ Held ext s.heap op := fun o h => hk o (by
        simp only [OSEv.calls, List.filterMap_cons] at h ⊢
        exact List.mem_cons_of_mem _ h)
      have ho' : OpOk H (vec s) op ∧ HistoryOk H (Spec.ostep H (vec s) op).1 (OSEv.calls es) := ho
      obtain ⟨s', h1, h2, h3, h4⟩ := call_ok H strict hc ho'.1 hk1.2
      obtain ⟨n1, n2⟩ := noticed_step H strict hc hk1.1 ho'.1 hk1.2 h1
      obtain ⟨hw', -⟩ := tracked_step H strict hw hk1.1 s' h1
      simp only [session, h1, Spec.osteps]
      rw [← h2]
      refine ih s' it i p late _ hw' h3 (fun o h => ⟨(hk2 o h).1, fun x hx => by rw [h4]; exact (hk2 o h).2 x hx⟩)
        (by rw [h2]; exact ho'.2) ?_
      rw [← Bool.or_assoc]
      exact hf.call n1 n2
    | next =>
      have go : ∀ {it' : LIter} {o : Obj} {i' p' : Nat}, it.next s.list = (it', .yield o) →
          it'.Fwd s.list i' p' false →
          session H strict s it (.next :: es) = .yield o :: Spec.walk i' p' false (Spec.osteps H (vec s) false es) := by
        intro it' o i' p' hn f1
        obtain ⟨h', hinc, -⟩ := Heap.incref_ok (hc.live (next_mem hn))
        obtain ⟨hc', himm⟩ := covered_incref hc hinc
        rw [session_yield hn hinc, ih ⟨s.list, h'⟩ it' i' p' false false hw hc'
          (fun o h => ⟨(hk o h).1, fun x hx => by show h'.imm x = true ∨ _; rw [himm]; exact (hk o h).2 x hx⟩) ho f1]
        rfl
      rw [Spec.osteps, Spec.walk]
      by_cases hi : (vec s).length ≤ i
      · rw [if_pos hi, session_stop (hf.over (by simpa [vec] using hi)),
          ih s it i p (late || b) false hw hc hk ho (by rw [Bool.or_false]; exact hf)]
      · rw [if_neg hi]
        have hi' : i < s.list.size := by simpa [vec] using hi
        cases hlb : late || b with
        | true =>
          rw [hlb] at hf
          obtain ⟨it', e1, f1⟩ := hf.late hw hi'
          have hv : (vec s)[i]? = some _ := LIter.getElem?_vals hi'
          rw [go e1 f1, hv]
          rfl
        | false =>
          rw [hlb] at hf
          obtain ⟨it', e1, f1⟩ := hf.plain hw hi'
          have hp : p < s.list.size := by have := hf.ahead; omega
          have hv : (vec s)[p]? = some _ := LIter.getElem?_vals hp
          rw [go e1 f1, hv]
          rfl

theorem session_walkBack (H : OHost) (strict : Bool) {ext : Obj → Nat} (es : List OSEv) : ∀ (s : OLState) (it : LIter)
    (i : Option Nat) (p : Nat) (late b : Bool), s.list.WF → Covered ext s.heap (vec s) →
    (∀ op ∈ OSEv.calls es, OTracked op ∧ Held ext s.heap op) →
    HistoryOk H (vec s) (OSEv.calls es) → it.Bwd s.list i p (late || b) →
    session H strict s it es = Spec.walkBack i p late (Spec.osteps H (vec s) b es) := by
  induction es with
  | nil => intros; rfl
  | cons e es ih =>
    intro s it i p late b hw hc hk ho hf
    cases e with
    | call op =>
      have hk1 := hk op (by simp [OSEv.calls])
      have hk2 : ∀ op ∈ OSEv.calls es, OTracked op ∧ Held ext s.heap op := fun o h => hk o (by
        simp only [OSEv.calls, List.filterMap_cons] at h ⊢
        exact List.mem_cons_of_mem _ h)
      have ho' : OpOk H (vec s) op ∧ HistoryOk H (Spec.ostep H (vec s) op).1 (OSEv.calls es) := ho
      obtain ⟨s', h1, h2, h3, h4⟩ := call_ok H strict hc ho'.1 hk1.2
      obtain ⟨n1, n2⟩ := noticed_step H strict hc hk1.1 ho'.1 hk1.2 h1
      obtain ⟨hw', -⟩ := tracked_step H strict hw hk1.1 s' h1
      simp only [session, h1, Spec.osteps]
      rw [← h2]
      refine ih s' it i p late _ hw' h3 (fun o h => ⟨(hk2 o h).1, fun x hx => by rw [h4]; exact (hk2 o h).2 x hx⟩)
        (by rw [h2]; exact ho'.2) ?_
      rw [← Bool.or_assoc]
      exact hf.call n1 n2
    | next =>
      have go : ∀ {it' : LIter} {o : Obj} {i' : Option Nat} {p' : Nat} {late' : Bool},
          it.next s.list = (it', .yield o) → it'.Bwd s.list i' p' late' →
          session H strict s it (.next :: es) =
            .yield o :: Spec.walkBack i' p' late' (Spec.osteps H (vec s) false es) := by
        intro it' o i' p' late' hn f1
        obtain ⟨h', hinc, -⟩ := Heap.incref_ok (hc.live (next_mem hn))
        obtain ⟨hc', himm⟩ := covered_incref hc hinc
        rw [session_yield hn hinc, ih ⟨s.list, h'⟩ it' i' p' late' false hw hc'
          (fun o h => ⟨(hk o h).1, fun x hx => by show h'.imm x = true ∨ _; rw [himm]; exact (hk o h).2 x hx⟩) ho
          (by rw [Bool.or_false]; exact f1)]
        rfl
      rw [Spec.osteps, Spec.walkBack]
      cases hz : (vec s).getLast? with
      | none =>
        have h0 : s.list.size = 0 := by
          have : s.list.vals = [] := List.getLast?_eq_none_iff.1 hz
          rw [← LState.length_vals, this]; rfl
        rw [session_stop (LIter.Bwd.empty h0),
          ih s it i p (late || b) false hw hc hk ho (by rw [Bool.or_false]; exact hf)]
      | some z =>
        have h0 : s.list.size ≠ 0 := by
          intro h0
          have : vec s = [] := List.eq_nil_of_length_eq_zero (by simpa [vec] using h0)
          rw [this] at hz
          cases hz
        cases i with
        | none =>
          rw [session_stop hf.over, ih s it none p (late || b) false hw hc hk ho (by rw [Bool.or_false]; exact hf)]
        | some i =>
          cases i with
          | zero =>
            obtain ⟨it', e1, f1⟩ := hf.last hz
            rw [go e1 f1]
          | succ i =>
            cases hlb : late || b with
            | true =>
              rw [hlb] at hf
              simp only [if_true]
              by_cases hi : i + 1 < s.list.size
              · obtain ⟨it', e1, f1⟩ := hf.late hw hi
                have hv : (vec s)[i + 1]? = some _ := LIter.getElem?_vals hi
                rw [go e1 f1, hv]
              · have hv : (vec s)[i + 1]? = none := List.getElem?_eq_none (by simp [vec]; omega)
                rw [session_ub (hf.late_ub h0 (by omega)), hv]
            | false =>
              rw [hlb] at hf
              obtain ⟨hp, it', e1, f1⟩ := hf.plain hw
              simp only [Bool.false_eq_true, if_false]
              have hv : (vec s)[p]? = some _ := LIter.getElem?_vals hp
              rw [go e1 f1, hv]

end Verif.ObjLinked
