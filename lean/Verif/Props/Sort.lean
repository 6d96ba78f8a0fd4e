import Verif.Lemmas.ListSort

/-!
# C34, C35, C36: sorting through `CPython_sort`

Callbacks that do not touch the list being sorted (C37 is about those that do). Lengths below 2^60: a larger
array of object pointers does not exist.
-/

namespace Verif.Props

open Verif Verif.Spec CPySort ListSort

variable {σ κ ν : Type}

/-! ## C34: stable sorted permutation -/

/-- C34, the specification is complete: a list has at most one stable sort. -/
theorem C34_result_unique (lt : ν → ν → Bool) (sw : StrictWeak lt) (l a b : List ν) (ha : StableSort lt l a)
    (hb : StableSort lt l b) : a = b := StableSort.unique sw ha hb

/-- C34 for ObjectArrayList, with or without key: for every strict weak order `sort` succeeds and leaves the
stable sort of the elements, both directions. -/
theorem C34_object_array (c : Call σ κ ν) (lt : ν → ν → Bool) (env : σ) (l : List ν) (rev : Bool)
    (ho : c.Order lt) (hm : c.MemOk) (hmax : l.length < 2 ^ 60) :
    ∃ out env', objArray c env l rev = .ok (.ok out (), env') ∧ StableSort (dir lt rev) l out := by
  obtain ⟨ok, out, env', err, h1, _, h3, h4, h5, _⟩ := call_spec c env l rev hmax
  cases ok with
  | false =>
    obtain ⟨e, _, hr⟩ := h3 rfl
    exact absurd hr (order_not_raised c lt ho hm env' e)
  | true =>
    have he := h4 rfl
    subst he
    refine ⟨out, env', ?_, h5 lt ho rfl⟩
    unfold objArray
    simp only [h1, bind, Except.bind, pure, Except.pure]

/-- C34 for ObjectLinkedList: same, the nodes stay and only their values move. -/
theorem C34_object_linked (c : Call σ κ ν) (lt : ν → ν → Bool) (env : σ) (s : LState ν) (rev : Bool)
    (ho : c.Order lt) (hm : c.MemOk) (hmax : s.vals.length < 2 ^ 60) :
    ∃ s' env', objLinked c env s rev = .ok (.ok s' (), env') ∧ StableSort (dir lt rev) s.vals s'.vals ∧
      s'.ids = s.ids ∧ s'.modCount = s.modCount + 1 := by
  match hm1 : c.malloc env s.size with
  | (false, e) => have := hm env s.size; rw [hm1] at this; cases this
  | (true, env1) =>
    obtain ⟨ok, out, env', err, h1, h2, h3, h4, h5, _⟩ := call_spec c env1 s.vals rev hmax
    cases ok with
    | false =>
      obtain ⟨e, _, hr⟩ := h3 rfl
      exact absurd hr (order_not_raised c lt ho hm env' e)
    | true =>
      have he := h4 rfl
      subst he
      have hlen : s.ids.length = out.length := by rw [h2.length_eq]; simp [LState.ids, LState.vals]
      refine ⟨{ s with nodes := s.ids.zip out, modCount := s.modCount + 1 }, env', ?_, ?_, ?_, rfl⟩
      · unfold objLinked
        rw [hm1]
        simp only [h1, bind, Except.bind, pure, Except.pure]
      · have : (LState.vals { s with nodes := s.ids.zip out, modCount := s.modCount + 1 }) = out := by
          simp only [LState.vals]; rw [List.map_snd_zip]; omega
        rw [this]
        exact h5 lt ho rfl
      · simp only [LState.ids]
        rw [List.map_fst_zip]
        simp only [LState.ids] at hlen
        omega

/-- Callbacks for the examples: key = element modulo 10, integer order, allocation always succeeds. -/
def mod10 : Caller Unit Int Int :=
  { key := fun s x => (.ok (x % 10), s), lt := fun s x y => (.ok (decide (x < y)), s), malloc := fun s _ => (true, s) }

theorem weak_int : StrictWeak (fun x y : Int => decide (x < y)) :=
  ⟨fun x => by simp, fun x y z => by simp; omega, fun x y z => by simp; omega⟩

/-- The hypotheses are met, and the result is what it should be. -/
example : (Call.keyed mod10 : Call Unit Int Int).Order (fun x y => decide (x % 10 < y % 10)) ∧
    (Call.keyed mod10 : Call Unit Int Int).MemOk :=
  ⟨⟨fun x => x % 10, fun x y => decide (x < y), ⟨fun _ _ => rfl, fun _ _ _ => rfl, weak_int⟩, rfl⟩, fun _ _ => rfl⟩
example : (objArray (Call.keyed mod10) () [31, 12, 21, 2, 11] false).toOption = some (.ok [31, 21, 11, 12, 2] (), ()) := by decide +kernel
example : (objArray (Call.keyed mod10) () [31, 12, 21, 2, 11] true).toOption = some (.ok [12, 2, 31, 21, 11] (), ()) := by decide +kernel

/-- C34 for IntArrayList and BigIntArrayList with a key, for `Sendable` values: every BigIntArrayList;
IntArrayList up to 3.11 with |v| < 2^30, from 3.12 with 0 < v < 2^30. The key function sees the ordinary ints.
Missing: other values of IntArrayList (`C34_negation_312`, `C34_negation_311`). -/
theorem C34_int_array_partial (K : Kind) (py : PyVer) (c : Caller σ κ PyLong) (kf : PyLong → κ) (lt : κ → κ → Bool) (env : σ)
    (l : List Int) (rev : Bool) (hf : ∀ v ∈ l, FitsS K.bits v) (hs : ∀ v ∈ l, Sendable K py v) (ho : Ordered c kf lt)
    (hm : MemOk c) (hmax : l.length < 2 ^ 60) :
    ∃ out env', intArray K py c env l rev = .ok (.ok out (), env') ∧
      StableSort (dir (fun x y => lt (kf (canon x)) (kf (canon y))) rev) l out := by
  rcases intArray_spec K py c env l rev hf hmax with ⟨e, _, h⟩ | ⟨env1, srt, env', err, _, hp, h2, h3, h4, _⟩
  · have := hm env l.length; rw [h] at this; cases this
  · have he : err = none := by
      cases err with
      | none => rfl
      | some e =>
        exfalso
        rcases h3 e rfl with ⟨s, x, h⟩ | ⟨s, x, y, h⟩ | ⟨_, s, n, h⟩
        · have := ho.key s x; rw [h] at this; cases this
        · have := ho.lt s x y; rw [h] at this; cases this
        · have := hm s n; rw [h] at this; cases this
    subst he
    have hany : l.any (Lost K py) = false := by
      rw [List.any_eq_false]; intro v hv; rw [(sendable_box (hf v hv) (hs v hv)).2.2]; decide
    have hsent : srt.map (sent K py) = srt := by
      have : ∀ v ∈ srt, sent K py v = id v := fun v hv =>
        (sendable_box (hf v (hp.mem_iff.1 hv)) (hs v (hp.mem_iff.1 hv))).2.1
      rw [List.map_congr_left this, List.map_id]
    rw [hany, hsent] at h2
    refine ⟨srt, env', h2, ?_⟩
    have hst := h4 kf lt ho rfl
    have hbox : ∀ v ∈ l, box K py v = canon v := fun v hv => (sendable_box (hf v hv) (hs v hv)).1
    obtain ⟨p, s, o⟩ := hst
    -- on the elements of the list the two orders agree
    have hag : ∀ x ∈ l, ∀ y ∈ l, dir (fun x y => lt (kf (box K py x)) (kf (box K py y))) rev x y =
        dir (fun x y => lt (kf (canon x)) (kf (canon y))) rev x y := by
      intro x hx y hy
      cases rev <;> simp only [dir, Bool.false_eq_true, if_false, if_true, hbox x hx, hbox y hy]
    refine stable_congr ?_ hag ⟨p, s, o⟩
    have sw := ho.weak
    cases rev with
    | false => exact ⟨fun x => sw.irrefl _, fun x y z => sw.trans _ _ _, fun x y z => sw.negTrans _ _ _⟩
    | true => exact ⟨fun x => sw.irrefl _, fun x y z h1 h2 => sw.trans _ _ _ h2 h1, fun x y z h1 h2 => sw.negTrans _ _ _ h2 h1⟩

/-- C34 for IntLinkedList with a key, same values; the nodes stay and only their values move. -/
theorem C34_int_linked_partial (py : PyVer) (c : Caller σ κ PyLong) (kf : PyLong → κ) (lt : κ → κ → Bool) (env : σ)
    (s : LState Int) (rev : Bool) (hf : ∀ v ∈ s.vals, FitsS 32 v) (hs : ∀ v ∈ s.vals, Sendable .i32 py v) (ho : Ordered c kf lt)
    (hm : MemOk c) (hmax : s.vals.length < 2 ^ 60) :
    ∃ s' env', intLinked py c env s rev = .ok (.ok s' (), env') ∧
      StableSort (dir (fun x y => lt (kf (canon x)) (kf (canon y))) rev) s.vals s'.vals ∧
      s'.ids = s.ids ∧ s'.modCount = s.modCount + 1 := by
  obtain ⟨out, env', h1, h2⟩ := C34_int_array_partial .i32 py c kf lt env s.vals rev hf hs ho hm hmax
  have hlen : s.ids.length = out.length := by rw [h2.1.length_eq]; simp [LState.ids, LState.vals]
  refine ⟨{ s with nodes := s.ids.zip out, modCount := s.modCount + 1 }, env', ?_, ?_, ?_, rfl⟩
  · unfold intLinked
    simp only [h1, bind, Except.bind, pure, Except.pure]
  · have : (LState.vals { s with nodes := s.ids.zip out, modCount := s.modCount + 1 }) = out := by
      simp only [LState.vals]; rw [List.map_snd_zip]; omega
    rw [this]
    exact h2
  · simp only [LState.ids]
    rw [List.map_fst_zip]
    simp only [LState.ids] at hlen
    omega

/-- Callbacks for the examples: key = value of the int. -/
def byValue : Caller Unit Int PyLong :=
  { key := fun s x => (.ok x.value, s), lt := fun s x y => (.ok (decide (x < y)), s), malloc := fun s _ => (true, s) }

example : Ordered byValue PyLong.value (fun x y => decide (x < y)) ∧ MemOk byValue :=
  ⟨⟨fun _ _ => rfl, fun _ _ _ => rfl, weak_int⟩, fun _ _ => rfl⟩
example : ∀ v ∈ [-5, 7, 0], FitsS 32 v ∧ Sendable .i32 .le311 v := by decide
example : ∀ v ∈ [5, 7, 2 ^ 30 - 1], FitsS 32 v ∧ Sendable .i32 .ge313 v := by decide

/-- C34 fails for IntArrayList from CPython 3.12 on: if the list has a negative element (other than -2^31), then
whatever the key function does, sort returns None with an OverflowError pending and every such element has
been replaced by -1. -/
theorem C34_negation_312 (py : PyVer) (hpy : py ≠ .le311) (c : Caller σ κ PyLong) (env : σ) (l : List Int) (rev : Bool)
    (hf : ∀ v ∈ l, FitsS 32 v) (hm : MemOk c) (hmax : l.length < 2 ^ 60) (v : Int) (hv : v ∈ l) (hneg : v < 0)
    (hmin : v ≠ -(2 ^ 31)) :
    ∃ out env', intArray .i32 py c env l rev = .ok (.pending out () .overflowError, env') ∧
      out.Perm (l.map fun v => if v < 0 ∧ v ≠ -(2 ^ 31) then -1 else v) := by
  rcases intArray_spec .i32 py c env l rev hf hmax with ⟨e, _, h⟩ | ⟨env1, srt, env', err, _, hp, h2, _⟩
  · have := hm env l.length; rw [h] at this; cases this
  · have hany : l.any (Lost .i32 py) = true := by
      rw [List.any_eq_true]
      refine ⟨v, hv, ?_⟩
      have : (v < 0 ∧ v ≠ -(2 ^ 31)) := ⟨hneg, hmin⟩
      simp only [Lost, this, decide_true, hpy, ne_eq, not_false_eq_true, Bool.and_self, and_self]
    rw [hany, if_pos rfl] at h2
    refine ⟨_, env', h2, ?_⟩
    have : sent .i32 py = fun v => if v < 0 ∧ v ≠ -(2 ^ 31) then -1 else v := by
      funext w
      cases py with
      | le311 => exact absurd rfl hpy
      | _ => rfl
    rw [this]
    exact hp.map _

example : (intArray .i32 .ge313 byValue () [3, -7, 5] false).toOption = some (.pending [-1, 3, 5] () .overflowError, ()) := by decide +kernel

/-- C34 fails for IntArrayList up to CPython 3.11: sort(key) replaces every element by its low 30 bits (with
its sign). -/
theorem C34_negation_311 (c : Caller σ κ PyLong) (kf : PyLong → κ) (lt : κ → κ → Bool) (ho : Ordered c kf lt) (env : σ) (l : List Int)
    (rev : Bool) (hf : ∀ v ∈ l, FitsS 32 v) (hm : MemOk c) (hmax : l.length < 2 ^ 60) :
    ∃ out env', intArray .i32 .le311 c env l rev = .ok (.ok out (), env') ∧
      out.Perm (l.map fun v => v.tmod (2 ^ 30)) ∧ (∀ v ∈ l, 2 ^ 30 ≤ v → v.tmod (2 ^ 30) ≠ v) := by
  rcases intArray_spec .i32 .le311 c env l rev hf hmax with ⟨e, _, h⟩ | ⟨env1, srt, env', err, _, hp, h2, h3, _⟩
  · have := hm env l.length; rw [h] at this; cases this
  · have he : err = none := by
      cases err with
      | none => rfl
      | some e =>
        exfalso
        rcases h3 e rfl with ⟨s, x, h⟩ | ⟨s, x, y, h⟩ | ⟨_, s, n, h⟩
        · have := ho.key s x; rw [h] at this; cases this
        · have := ho.lt s x y; rw [h] at this; cases this
        · have := hm s n; rw [h] at this; cases this
    subst he
    have hany : l.any (Lost .i32 .le311) = false := by
      rw [List.any_eq_false]; intro v _; simp [Lost]
    rw [hany] at h2
    refine ⟨_, env', h2, hp.map _, ?_⟩
    intro v hv h30 hc
    rw [Int.tmod_eq_emod_of_nonneg (by omega)] at hc
    omega

example : (intArray .i32 .le311 byValue () [2 ^ 30 + 3, 5] false).toOption = some (.ok [5, 3] (), ()) := by decide +kernel

/-! ## C35: misbehaving callbacks -/

/-- C35 for ObjectArrayList: for every key function, comparison and allocator - inconsistent, stateful, raising at
any point - sort terminates without touching memory outside the array and the work area (no `Fault`), the
elements afterwards are a permutation of the elements before, it either succeeds or raises exactly the
exception of the last callback made, and it succeeds only if no callback raised. -/
theorem C35_object_array (c : Call σ κ ν) (env : σ) (l : List ν) (rev : Bool) (hmax : l.length < 2 ^ 60) :
    ∃ out env', out.Perm l ∧
      ((objArray c env l rev = .ok (.ok out (), env') ∧ ∀ flag, c.Flags flag → flag env = false → flag env' = false) ∨
       ∃ e, objArray c env l rev = .ok (.exc out e, env') ∧ c.Raised env' e) := by
  obtain ⟨ok, out, env', err, h1, h2, h3, h4, _, h6⟩ := call_spec c env l rev hmax
  refine ⟨out, env', h2, ?_⟩
  cases ok with
  | true =>
    have he := h4 rfl
    subst he
    refine Or.inl ⟨?_, fun flag hf h0 => h6 flag hf h0 rfl⟩
    unfold objArray
    simp only [h1, bind, Except.bind, pure, Except.pure]
  | false =>
    obtain ⟨e, rfl, hr⟩ := h3 rfl
    refine Or.inr ⟨e, ?_, hr⟩
    unfold objArray
    simp only [h1, bind, Except.bind, pure, Except.pure]

/-- Callbacks for the examples: the comparison counts its calls, answers `true` whatever it is asked, and raises
at its third call; the flag is "a comparison has raised". -/
def moody : Caller (Nat × Bool) Int Int :=
  { key := fun s x => (.ok x, s)
    lt := fun s _ _ => if s.1 = 2 then (.error .valueError, (3, true)) else (.ok true, (s.1 + 1, s.2))
    malloc := fun s _ => (true, s) }

example : (Call.keyed moody : Call (Nat × Bool) Int Int).Flags (·.2) := by
  refine ⟨fun s x k s' h => ?_, fun s x y b s' h => ?_, fun s n s' h => ?_⟩
  · cases h; exact id
  · simp only [moody] at h
    split at h
    · cases h
    · cases h; exact id
  · cases h; exact id
example : (objArray (Call.keyed moody : Call (Nat × Bool) Int Int) (0, false) [1, 2] false).toOption = some (.ok [2, 1] (), (1, false)) := by decide +kernel
example : (objArray (Call.keyed moody : Call (Nat × Bool) Int Int) (0, false) [1, 2, 3, 4, 5] false).toOption = some (.exc [1, 2, 3, 4, 5] .valueError, (3, true)) := by decide +kernel

/-- C35 for ObjectLinkedList: no fault, and the elements afterwards are a permutation of the elements before.
Missing: a callback's exception is left pending instead of being raised (`C35_linked_negation`). -/
theorem C35_object_linked_partial (c : Call σ κ ν) (env : σ) (s : LState ν) (rev : Bool) (hmax : s.vals.length < 2 ^ 60) :
    ∃ s' env', s'.vals.Perm s.vals ∧ s'.ids = s.ids ∧
      (objLinked c env s rev = .ok (.ok s' (), env') ∨
       (∃ e, objLinked c env s rev = .ok (.pending s' () e, env') ∧ c.Raised env' e) ∨
       (objLinked c env s rev = .ok (.exc s' .memoryError, env') ∧ s' = s)) := by
  match hm1 : c.malloc env s.size with
  | (false, e) =>
    refine ⟨s, e, List.Perm.refl _, rfl, Or.inr (Or.inr ⟨?_, rfl⟩)⟩
    unfold objLinked
    rw [hm1]
  | (true, env1) =>
    obtain ⟨ok, out, env', err, h1, h2, h3, h4, _, _⟩ := call_spec c env1 s.vals rev hmax
    have hlen : s.ids.length = out.length := by rw [h2.length_eq]; simp [LState.ids, LState.vals]
    refine ⟨{ s with nodes := s.ids.zip out, modCount := s.modCount + 1 }, env', ?_, ?_, ?_⟩
    · have : (LState.vals { s with nodes := s.ids.zip out, modCount := s.modCount + 1 }) = out := by
        simp only [LState.vals]; rw [List.map_snd_zip]; omega
      rw [this]; exact h2
    · simp only [LState.ids]
      rw [List.map_fst_zip]
      simp only [LState.ids] at hlen
      omega
    · cases ok with
      | true =>
        have he := h4 rfl
        subst he
        refine Or.inl ?_
        unfold objLinked
        rw [hm1]
        simp only [h1, bind, Except.bind, pure, Except.pure]
      | false =>
        obtain ⟨e, rfl, hr⟩ := h3 rfl
        refine Or.inr (Or.inl ⟨e, ?_, hr⟩)
        unfold objLinked
        rw [hm1]
        simp only [h1, bind, Except.bind, pure, Except.pure]

/-- C35 for the int lists with a key: no fault; the elements afterwards are those before as they come back through
objects. Missing: exceptions are left pending (`C35_int_negation`), `sent` is not the identity (C34). -/
theorem C35_int_array_partial (K : Kind) (py : PyVer) (c : Caller σ κ PyLong) (env : σ) (l : List Int) (rev : Bool)
    (hf : ∀ v ∈ l, FitsS K.bits v) (hmax : l.length < 2 ^ 60) :
    ∃ env', intArray K py c env l rev = .ok (.exc l .memoryError, env') ∨
      ∃ out, out.Perm (l.map (sent K py)) ∧ (intArray K py c env l rev = .ok (.ok out (), env') ∨
        ∃ e, intArray K py c env l rev = .ok (.pending out () e, env') ∧ (e = .overflowError ∨ CallerRaised c env' e)) := by
  rcases intArray_spec K py c env l rev hf hmax with ⟨e, h, _⟩ | ⟨env1, srt, env', err, _, hp, h2, h3, _⟩
  · exact ⟨e, Or.inl h⟩
  · refine ⟨env', Or.inr ⟨_, hp.map _, ?_⟩⟩
    rw [h2]
    by_cases ha : l.any (Lost K py) = true
    · rw [if_pos ha]; exact Or.inr ⟨_, rfl, Or.inl rfl⟩
    · rw [if_neg ha]
      cases err with
      | none => exact Or.inl rfl
      | some e => exact Or.inr ⟨e, rfl, Or.inr (h3 e rfl)⟩

/-- C35 fails for ObjectLinkedList: when the key function raises, sort returns None with the exception pending,
for every non-empty list. -/
theorem C35_linked_negation (c : Caller σ κ ν) (env : σ) (s : LState ν) (rev : Bool) (hne : s.vals ≠ [])
    (hk : ∀ e x, ∃ y e', c.key e x = (.error y, e')) (hm : MemOk c) :
    ∃ e env', objLinked (Call.keyed c) env s rev = .ok (.pending { s with modCount := s.modCount + 1 } () e, env') := by
  obtain ⟨v, vs, hv⟩ := List.exists_cons_of_ne_nil hne
  match hm1 : c.malloc env s.size with
  | (false, e) => have := hm env s.size; rw [hm1] at this; cases this
  | (true, env1) =>
    generalize hgot : (if s.vals.length < 256 / 2 then (true, env1) else c.malloc env1 s.vals.length) = got
    obtain ⟨got, env2⟩ := got
    have hgot' : got = true := by
      split at hgot
      · cases hgot; rfl
      · have := hm env1 s.vals.length; rw [hgot] at this; exact this
    subst hgot'
    obtain ⟨y, e', hy⟩ := hk env2 v
    have hks : keysOf c env2 s.vals = (.error y, e') := by rw [hv, keysOf, hy]
    have hsort : (Call.keyed c : Call σ κ ν).sort env1 s.vals rev = .ok (false, s.vals, e', some y) := by
      show sortKeyed c env1 s.vals rev = _
      unfold sortKeyed
      rw [hgot]
      simp only [hks, Bool.not_true, Bool.false_eq_true, if_false]
    have hz : s.ids.zip s.vals = s.nodes := by
      simp only [LState.ids, LState.vals]
      induction s.nodes with
      | nil => rfl
      | cons a t ih => simp only [List.map_cons, List.zip_cons_cons, ih]
    refine ⟨y, e', ?_⟩
    unfold objLinked
    rw [show (Call.keyed c : Call σ κ ν).malloc env s.size = (true, env1) from hm1]
    simp only [hsort, bind, Except.bind, pure, Except.pure, hz]

/-- Callbacks for the example: a key function that raises. -/
def raising : Caller Unit Int Int :=
  { key := fun s _ => (.error .valueError, s), lt := fun s _ _ => (.ok false, s), malloc := fun s _ => (true, s) }

example : (∀ e x, ∃ y e', raising.key e x = (.error y, e')) ∧ MemOk raising := ⟨fun _ _ => ⟨_, _, rfl⟩, fun _ _ => rfl⟩

/-- C35 fails for IntArrayList, BigIntArrayList (and IntLinkedList, which runs the same code): when the key function
raises, sort(key) returns None with an exception pending, for every non-empty list. -/
theorem C35_int_negation (K : Kind) (py : PyVer) (c : Caller σ κ PyLong) (env : σ) (l : List Int) (rev : Bool) (hne : l ≠ [])
    (hf : ∀ v ∈ l, FitsS K.bits v) (hk : ∀ e x, ∃ y e', c.key e x = (.error y, e')) (hm : MemOk c) :
    ∃ out e env', intArray K py c env l rev = .ok (.pending out () e, env') := by
  obtain ⟨v, vs, rfl⟩ := List.exists_cons_of_ne_nil hne
  match hm1 : c.malloc env (v :: vs).length with
  | (false, e) => have := hm env (v :: vs).length; rw [hm1] at this; cases this
  | (true, env1) =>
    have hlen : ((v :: vs).map (box K py)).length = (v :: vs).length := by simp
    generalize hgot : (if ((v :: vs).map (box K py)).length < 256 / 2 then (true, env1) else c.malloc env1 ((v :: vs).map (box K py)).length) = got
    obtain ⟨got, env2⟩ := got
    have hgot' : got = true := by
      split at hgot
      · cases hgot; rfl
      · have := hm env1 ((v :: vs).map (box K py)).length; rw [hgot] at this; exact this
    subst hgot'
    obtain ⟨y, e', hy⟩ := hk env2 (box K py v)
    have hks : keysOf c env2 ((v :: vs).map (box K py)) = (.error y, e') := by rw [List.map_cons, keysOf, hy]
    have hsort : sortKeyed c env1 ((v :: vs).map (box K py)) rev = .ok (false, (v :: vs).map (box K py), e', some y) := by
      unfold sortKeyed
      rw [hgot]
      simp only [hks, Bool.not_true, Bool.false_eq_true, if_false]
    unfold intArray
    rw [hm1]
    simp only [hsort, bind, Except.bind, pure, Except.pure]
    rw [writeBack_eq K py (v :: vs) hf]
    by_cases ha : (v :: vs).any (Lost K py) = true
    · rw [if_pos ha]; exact ⟨_, _, _, rfl⟩
    · rw [if_neg ha]; exact ⟨_, _, _, rfl⟩

/-- Callbacks for the example: a key function that raises. -/
def raisingInt : Caller Unit Int PyLong :=
  { key := fun s _ => (.error .valueError, s), lt := fun s _ _ => (.ok false, s), malloc := fun s _ => (true, s) }

example : (intArray .i64 .ge313 raisingInt () [3, 1] false).toOption = some (.pending [3, 1] () .valueError, ()) := by decide +kernel

/-! ## C36: fixed-size tables of the object sort -/

/-- C36: for every caller, list and direction the number of pending runs stays within the table (a push beyond it
would be the outcome `stackFull`). -/
theorem C36_pending_runs (c : Call σ κ ν) (env : σ) (l : List ν) (rev : Bool) (hmax : l.length < 2 ^ 60) :
    c.sort env l rev ≠ .error .stackFull := by
  obtain ⟨ok, out, env', err, h1, _⟩ := call_spec c env l rev hmax
  rw [h1]
  intro h
  cases h

/-- C36: the sort never runs into any other fault either: no access outside the array or work area, no failed
assertion, no uninitialised power, no overflow of a length computation, no endless loop. -/
theorem C36_no_fault (c : Call σ κ ν) (env : σ) (l : List ν) (rev : Bool) (hmax : l.length < 2 ^ 60) (f : Fault) :
    c.sort env l rev ≠ .error f := by
  obtain ⟨ok, out, env', err, h1, _⟩ := call_spec c env l rev hmax
  rw [h1]
  intro h
  cases h

/-- C36: the areas that share the 256-slot stack buffer (merge work area for keys and for values, key array) lie
inside it and do not overlap, for every length. -/
theorem C36_stack_buffer (n : Nat) :
    (∀ r ∈ stackLayout n, r.1 + r.2 ≤ 256) ∧
    (stackLayout n).Pairwise (fun r q => r.1 + r.2 ≤ q.1 ∨ q.1 + q.2 ≤ r.1) := by
  unfold stackLayout initAlloced
  simp only [if_true]
  by_cases h : n < 256 / 2
  · rw [if_pos h, if_neg (by omega)]
    simp
    omega
  · rw [if_neg h]
    split <;> simp <;> omega

example : stackLayout 100 = [(0, 50), (50, 50), (101, 100)] := by decide
example : stackLayout 5000 = [(0, 128), (128, 128)] := by decide

end Verif.Props
