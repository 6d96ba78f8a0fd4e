import Verif.Lemmas.SortReentry

/-!
# C37: sorting a list that callbacks or other threads use

Key functions and comparisons here are arbitrary: they may perform any operations on any lists, keep state, answer
inconsistently and raise. What C37 asks is that the sort only touches memory that is the list's. It holds as long as
nobody moves the list's storage, and fails otherwise.
-/

namespace Verif.Props

open Verif.Store Verif.Reentry Verif.Spec
open Verif.CPySort (Caller keysOf sortKeyed)
open Verif.ListSort (Call intArray finish)

variable {cfg : Cfg} {K : Kind} {grow : Nat → Nat → Nat} {κ σ ν : Type}

/-! ## Int array lists with a key function -/

/-- After any history: if key function and comparisons operate on other lists only, `o.sort(key=…, reverse=…)` leaves in
`o` and answers exactly what the sort of these elements alone does, in the memory the callbacks leave, and does not
touch the other lists. Missing: callbacks that use `o`. -/
theorem C37_elsewhere_partial (py : PyVer) {es : List Ev} {w : World} {o : Nat} {l : List Int} {c : Caller World κ PyLong}
    (hr : Store.run cfg K grow start es = some w) (hl : contents w o = some l) (hmax : l.length < 2 ^ 60)
    (hc : Conduct cfg K grow (Elsewhere o) c) (rev : Bool) :
    ∃ r r' w2, intArray K py c w l rev = .ok (r, w2) ∧ sortIn K py c w o rev = .ok r' ∧ shows o r' = showsAlone r ∧
      Reach cfg K grow (Elsewhere o) w w2 ∧
      ∀ w', r'.state? = some w' → ∀ p, p ≠ o → contents w' p = contents w2 p := by
  have h := run_wf es _ _ wf_start hr
  obtain ⟨v, ho, ⟨env', h1, h2⟩ | ⟨l', e, w2, hlen, h1, h2, h3⟩⟩ :=
    sortIn_eq (cfg := cfg) (K := K) (grow := grow) h py c hl hc.malloc rev hmax
  · have : env' = w := by
      unfold intArray at h1
      have hm := hc.malloc w l.length
      split at h1
      · rename_i hx; rw [hx] at hm; cases h1; exact hm
      · rename_i hx
        simp only [bind, Except.bind] at h1
        split at h1
        · cases h1
        · exfalso
          simp only [pure, Except.pure, Except.ok.injEq, Prod.mk.injEq] at h1
          have h1 := h1.1
          unfold finish at h1
          split at h1 <;> cases h1
    subst this
    refine ⟨_, _, _, h1, h2, ?_, .refl _, ?_⟩
    · simp only [shows, showsAlone, hl]
    · intro w' hw' p _; cases hw'; rfl
  · have hre := h2 _ hc
    obtain ⟨w3, h4, h5, h6⟩ := writeBlock_same h ho hl hlen (hre.same h) (hre.wf h)
    rw [h4] at h3
    refine ⟨_, _, _, h1, h3, ?_, hre, ?_⟩
    · cases e <;> simp only [shows, showsAlone, finish, h5]
    · cases e with
      | none => intro w' hw' p hp; cases hw'; exact h6 p hp
      | some e => intro w' hw' p hp; cases hw'; exact h6 p hp

/-- If the list was created with `exceptSize = n` and neither before nor during the sort is made (or promised to become)
longer than `n`, then callbacks may use the list itself, even change it: the sort has no undefined behaviour. Its result
overwrites the front of what the callbacks left. Missing: lists that outgrow what they were created for. -/
theorem C37_room_partial (py : PyVer) {es es' : List Ev} {w0 w1 w : World} {o n : Nat} {arg : Option (Int ⊕ Src)} {l : List Int}
    {c : Caller World κ PyLong} (hg : Grows grow) (hn : 0 < n)
    (hr : Store.run cfg K grow start es = some w0) (hnew : ∀ id x, w0.views id = some x → x.of ≠ o)
    (hcr : step cfg K grow w0 (.create o arg n) = .ok w1 .none) (hwi : Within cfg K grow o n w1 es')
    (hr' : Store.run cfg K grow w1 es' = some w) (hl : contents w o = some l) (hle : l.length ≤ n) (hmax : l.length < 2 ^ 60)
    (hc : Conduct cfg K grow (InRoom o n) c) (rev : Bool) :
    ∃ r r' w2 old, intArray K py c w l rev = .ok (r, w2) ∧ sortIn K py c w o rev = .ok r' ∧
      Reach cfg K grow (InRoom o n) w w2 ∧ contents w2 o = some old ∧ shows o r' = showsAlone (Spec.Out.over old r) ∧
      ∀ u, r' ≠ .ub u := by
  have h0 := run_wf es _ _ wf_start hr
  have h1 : WF w1 := step_wf h0 (by rw [hcr]; rfl)
  obtain ⟨b, hh⟩ := create_home hg hn hnew hcr
  obtain ⟨h, hh⟩ := run_home es' _ _ h1 hh hwi hr'
  obtain ⟨v, ho, ⟨env', e1, e2⟩ | ⟨l', e, w2, hlen, e1, e2, e3⟩⟩ :=
    sortIn_eq (cfg := cfg) (K := K) (grow := grow) h py c hl hc.malloc rev hmax
  · have : env' = w := by
      unfold intArray at e1
      have hm := hc.malloc w l.length
      split at e1
      · rename_i hx; rw [hx] at hm; cases e1; exact hm
      · rename_i hx
        simp only [bind, Except.bind] at e1
        split at e1
        · cases e1
        · exfalso
          simp only [pure, Except.pure, Except.ok.injEq, Prod.mk.injEq] at e1
          have e1 := e1.1
          unfold finish at e1
          split at e1 <;> cases e1
    subst this
    refine ⟨_, _, _, l, e1, e2, .refl _, hl, ?_, by intro u hu; cases hu⟩
    simp [shows, showsAlone, hl, Spec.Out.over, over]
  · have hre := e2 _ hc
    have hh2 := (hre.home h hh (fun l' hl' => by rw [hl] at hl'; cases hl'; exact hle)).1
    obtain ⟨m, _, ho', _⟩ := hh.vec
    rw [ho] at ho'
    cases ho'
    obtain ⟨w3, old, h4, h5, h6⟩ := writeBlock_home (l' := l') (hre.wf h) hh2 (by omega)
    simp only [h4] at e3
    refine ⟨_, _, _, old, e1, e3, hre, h5, ?_, ?_⟩
    · cases e <;> simp only [shows, showsAlone, finish, h6, Spec.Out.over]
    · cases e <;> (intro u hu; cases hu)

/-- The property fails: after any history and for every live, non-empty list there is a key function that only appends
to the list and answers normally, and a comparison that always answers False, such that the sort writes into freed
memory. -/
theorem C37_append_uaf (py : PyVer) {es : List Ev} {w : World} {o : Nat} {l : List Int} (hr : Store.run cfg K grow start es = some w)
    (hl : contents w o = some l) (hne : l ≠ []) (hmax : l.length < 2 ^ 60) (rev : Bool) :
    ∃ (k : Nat) (c : Caller World Int PyLong), Conduct cfg K grow (Held o) c ∧
      (∀ w x, (c.key w x).1 = .ok x.value ∧
        ∀ w', Store.run cfg K grow w (List.replicate k (.call o (.append (.int 0)) 0)) = some w' → (c.key w x).2 = w') ∧
      (∀ w x y, c.lt w x y = (.ok false, w)) ∧ (∀ w n, c.malloc w n = (true, w)) ∧
      sortIn K py c w o rev = .ok (.ub .useAfterFree) := by
  have h := run_wf es _ _ wf_start hr
  cases l with
  | nil => exact absurd rfl hne
  | cons a l =>
    cases ho : w.objs o with
    | none => rw [contents_none ho] at hl; cases hl
    | some v =>
      obtain ⟨blk, m⟩ := v
      cases blk with
      | none => rw [contents_nul ho] at hl; cases hl
      | some b =>
        obtain ⟨cs, hcs, hle⟩ := h.vec o b m ho
        obtain ⟨w1, hr1, hn1, _⟩ := append_moves (cfg := cfg) (K := K) (grow := grow) (cs.length - m) w o b m cs h ho hcs rfl
        let evs := List.replicate (cs.length - m + 1) (Ev.call o (.append (.int 0)) 0)
        let c : Caller World Int PyLong :=
          { key := fun w x => (.ok x.value, (Store.run cfg K grow w evs).getD w)
            lt := fun w _ _ => (.ok false, w)
            malloc := fun w _ => (true, w) }
        have hc : Conduct cfg K grow (Held o) c := by
          refine ⟨?_, fun _ _ _ => .refl _, fun _ _ => rfl⟩
          intro w x
          show Reach cfg K grow (Held o) w ((Store.run cfg K grow w evs).getD w)
          cases hx : Store.run cfg K grow w evs with
          | none => exact .refl _
          | some w' =>
            refine run_reach evs ?_ _ _ hx
            intro e he _ _
            rw [List.eq_of_mem_replicate he]
            intro hx
            cases hx
        refine ⟨cs.length - m + 1, c, hc, ?_, fun _ _ _ => rfl, fun _ _ => rfl, ?_⟩
        · intro w x
          refine ⟨rfl, ?_⟩
          intro w' hw'
          show (Store.run cfg K grow w evs).getD w = w'
          rw [show Store.run cfg K grow w evs = some w' from hw']
          rfl
        · obtain ⟨v, l', e, w2, hv, hne', hq, hs⟩ :=
            sortIn_after_key (K := K) h py hc.moves hl (fun _ _ => rfl) rev hmax
          rw [ho] at hv
          cases hv
          have hk : (c.key w (box K py a)).2 = w1 := by
            show (Store.run cfg K grow w evs).getD w = w1
            rw [show Store.run cfg K grow w evs = some w1 from hr1]
            rfl
          rw [hk] at hq
          have hw1 : WF w1 := run_wf _ _ _ h hr1
          have hg : Gone b w1 := by
            refine ⟨?_, hn1⟩
            exact Nat.lt_of_lt_of_le (h.low b cs hcs) (run_next _ _ _ h hr1)
          rw [writeBlock_gone hne' (hq.gone hw1 hg)] at hs
          exact hs

/-! ## Int array lists without a key: other threads -/

/-- While `o.sort()` runs without the lock, other threads may do anything with other lists: whatever the sort stores and
the others do in between, each access of the sort finds its storage. Missing: threads that use `o`. -/
theorem C37_threads_partial {es : List Ev} {w w' : World} {o : Nat} {v : Vec} {l : List Int} (hr : Store.run cfg K grow start es = some w)
    (ho : w.objs o = some v) (hl : contents w o = some l) (hra : Raced cfg K grow (Elsewhere o) v.blk w w') {i : Nat}
    (hi : i < l.length) : ∃ x, accessBlock w' v.blk i = .ok x ∧ ∃ l', contents w' o = some l' ∧ l'[i]? = some x := by
  have h := run_wf es _ _ wf_start hr
  obtain ⟨blk, n⟩ := v
  cases blk with
  | none =>
    rw [contents_nul ho] at hl
    cases hl
    simp at hi
  | some b =>
    have hlen := contents_len hl ho h
    obtain ⟨hw', ho'⟩ := raced_safe h ho hra
    obtain ⟨cs, hcs, hle⟩ := hw'.vec o b n ho'
    have hlt : i < cs.length := by omega
    refine ⟨cs[i], ?_, cs.take n, contents_of ho' hcs, ?_⟩
    · simp only [accessBlock, hcs, List.getElem?_eq_getElem hlt]
    · rw [List.getElem?_take_of_lt (by omega), List.getElem?_eq_getElem hlt]

/-- The property fails: for every live, non-empty list there are appends by another thread after which each access of
a sort of this list, in progress, is a use after free. -/
theorem C37_threads_uaf {es : List Ev} {w : World} {o : Nat} {v : Vec} {l : List Int} (hr : Store.run cfg K grow start es = some w)
    (ho : w.objs o = some v) (hl : contents w o = some l) (hne : l ≠ []) :
    ∃ k w', Store.run cfg K grow w (List.replicate k (.call o (.append (.int 0)) 0)) = some w' ∧
      Raced cfg K grow (Held o) v.blk w w' ∧ ∀ i, accessBlock w' v.blk i = .error .useAfterFree := by
  have h := run_wf es _ _ wf_start hr
  obtain ⟨blk, m⟩ := v
  cases blk with
  | none => rw [contents_nul ho] at hl; cases hl; exact absurd rfl hne
  | some b =>
    obtain ⟨cs, hcs, hle⟩ := h.vec o b m ho
    obtain ⟨w1, hr1, hn1, _⟩ := append_moves (cfg := cfg) (K := K) (grow := grow) (cs.length - m) w o b m cs h ho hcs rfl
    refine ⟨_, w1, hr1, raced_of_reach (run_reach _ ?_ _ _ hr1), ?_⟩
    · intro e he _ _
      rw [List.eq_of_mem_replicate he]
      intro hx
      cases hx
    · intro i
      simp only [accessBlock, hn1]

/-! ## Linked lists -/

/-- `IntLinkedList.sort(key=…)`: if the callbacks never leave the list shorter than it was at the start, there is no
undefined behaviour; the sorted elements overwrite the front of what the callbacks left. Missing: callbacks that shorten
the list. -/
theorem C37_int_linked_partial (py : PyVer) {s : LState Int} {c : Caller (LState Int) κ PyLong} (hc : NotBelow s.size c)
    (hmax : s.size < 2 ^ 60) (rev : Bool) :
    ∃ r r' s2, intArray .i32 py c s s.vals rev = .ok (r, s2) ∧ intLinkedIn py c s rev = .ok r' ∧ s.size ≤ s2.size ∧
      showsVals r' = Spec.Out.over s2.vals r ∧ ∀ u, r' ≠ .ub u := by
  have hlen : s.vals.length = s.size := by simp [LState.vals, LState.size]
  unfold intArray intLinkedIn
  rw [hlen]
  have hm := hc.malloc s s.size
  cases hmal : c.malloc s s.size with
  | mk got s1 =>
    rw [hmal] at hm
    simp only at hm
    subst hm
    cases got with
    | false =>
      refine ⟨_, _, _, rfl, rfl, Nat.le_refl _, ?_, by intro u hu; cases hu⟩
      simp [showsVals, Spec.Out.over, over]
    | true =>
      obtain ⟨okb, out, s2, err, hs, hp, _⟩ := CPySort.sortKeyed_spec c s1 (s1.vals.map (box .i32 py)) rev (by simpa [hlen] using hmax)
      have hmv := CPySort.sortKeyed_moves (notBelow_moves hc) _ _ _ _ _ _ _ hs (Nat.le_refl _)
      simp only [hs, bind, Except.bind, pure, Except.pure]
      have h1 := writeBack_length .i32 py out err
      have h2 := hp.length_eq
      rw [List.length_map] at h2
      have h3 : (ListSort.writeBack .i32 py out err).1.length ≤ s2.size := by omega
      obtain ⟨s3, e3, e4, _⟩ := rewrite_ok h3
      have h5 : (ListSort.writeBack .i32 py out err).1.length ≤ s2.vals.length := by
        simpa [LState.vals, LState.size] using h3
      refine ⟨_, _, _, rfl, rfl, hmv, ?_, ?_⟩
      · rw [e3]
        cases (ListSort.writeBack .i32 py out err).2 <;>
          simp only [showsVals, finish, Spec.Out.over, over_le h5, ← e4] <;> rfl
      · rw [e3]
        cases (ListSort.writeBack .i32 py out err).2 <;> (intro u hu; cases hu)

/-- The property fails: with a key function that clears the list and answers normally, the sort of every non-empty list
writes through an iterator behind the last node. -/
theorem C37_int_linked_clear (strict : Bool) (py : PyVer) {s : LState Int} (hne : s.nodes ≠ []) (hmax : s.size < 2 ^ 60) (rev : Bool) :
    ∃ c : Caller (LState Int) Int PyLong,
      (∀ s x, (c.key s x).1 = .ok x.value ∧ (LinkedList.step cfg strict s .clear).state? = some (c.key s x).2) ∧
      (∀ s x y, c.lt s x y = (.ok false, s)) ∧ (∀ s n, c.malloc s n = (true, s)) ∧
      intLinkedIn py c s rev = .ok (.ub .badIterator) := by
  let c : Caller (LState Int) Int PyLong :=
    { key := fun s x => (.ok x.value, s.clear)
      lt := fun s _ _ => (.ok false, s)
      malloc := fun s _ => (true, s) }
  refine ⟨c, fun _ _ => ⟨rfl, rfl⟩, fun _ _ _ => rfl, fun _ _ => rfl, ?_⟩
  have hlen : s.vals.length = s.size := by simp [LState.vals, LState.size]
  obtain ⟨okb, out, s2, err, hs, hp, _⟩ := CPySort.sortKeyed_spec c s (s.vals.map (box .i32 py)) rev (by simpa [hlen] using hmax)
  have hq := empty_moves (c := c) (fun _ _ _ => rfl) (fun _ _ _ h => h) (fun _ _ => rfl)
  have h2 := hp.length_eq
  rw [List.length_map, hlen] at h2
  have hpos : 0 < s.size := by
    unfold LState.size
    exact List.length_pos_iff.2 hne
  have hempty : s2.nodes = [] := by
    cases hv : s.vals.map (box .i32 py) with
    | nil => rw [hv] at hp; have := hp.length_eq; simp at this; subst this; simp at h2; omega
    | cons x xs =>
      rw [hv] at hs
      exact CPySort.sortKeyed_after_key hq (fun _ _ => rfl) _ _ _ _ _ _ _ _ (fun _ _ => rfl) hs rfl
  unfold intLinkedIn
  show (do let (_, slots, s2, err) ← sortKeyed c s (s.vals.map (box .i32 py)) rev; _) = _
  simp only [hs, bind, Except.bind, pure, Except.pure]
  rw [rewrite_short (by rw [writeBack_length]; unfold LState.size at *; rw [hempty]; simpa using by omega)]

/-- `ObjectLinkedList.sort(key=…)` or `sort()`: the same for lists of objects. What overwrites the front is a permutation of
the elements of the start. Missing: callbacks that shorten the list; reference counts. -/
theorem C37_object_linked_partial {s : LState ν} {c : Call (LState ν) κ ν} (hc : CallNotBelow s.size c) (hmax : s.size < 2 ^ 60)
    (rev : Bool) : ∃ r', objLinkedIn c s rev = .ok r' ∧ (r' = .exc s .memoryError ∨
      ∃ ok out s2 err s', c.sort s s.vals rev = .ok (ok, out, s2, err) ∧ out.Perm s.vals ∧ s.size ≤ s2.size ∧
        s'.vals = over out s2.vals ∧ s'.ids = s2.ids ∧ r' = (match err with | none => .ok s' () | some e => .pending s' () e)) := by
  have hlen : s.vals.length = s.size := by simp [LState.vals, LState.size]
  unfold objLinkedIn
  have hm := callNotBelow_malloc hc s s.size
  cases hmal : c.malloc s s.size with
  | mk got s1 =>
    rw [hmal] at hm
    simp only at hm
    subst hm
    cases got with
    | false => exact ⟨_, rfl, Or.inl rfl⟩
    | true =>
      obtain ⟨okb, out, s2, err, hs, hp, _⟩ := ListSort.call_spec c s1 s1.vals rev (by omega)
      have hmv := callNotBelow_moves hc hs (Nat.le_refl _)
      simp only [hs, bind, Except.bind, pure, Except.pure]
      have h2 := hp.length_eq
      have h3 : out.length ≤ s2.size := by omega
      obtain ⟨s3, e3, e4, e5⟩ := rewrite_ok h3
      have h5 : out.length ≤ s2.vals.length := by simpa [LState.vals, LState.size] using h3
      refine ⟨_, rfl, Or.inr ⟨okb, out, s2, err, { s3 with modCount := s3.modCount + 1 }, rfl, hp, hmv, ?_, e5, ?_⟩⟩
      · rw [over_le h5]; exact e4
      · rw [e3]
        cases err <;> rfl

/-- The property fails for ObjectLinkedList: a key function that clears the list and answers normally makes the sort of
every non-empty list write through an iterator behind the last node. -/
theorem C37_object_linked_clear {s : LState ν} (kf : ν → Int) (hne : s.nodes ≠ []) (hmax : s.size < 2 ^ 60) (rev : Bool) :
    ∃ c : Caller (LState ν) Int ν, (∀ s x, c.key s x = (.ok (kf x), s.clear)) ∧
      (∀ s x y, c.lt s x y = (.ok (decide (x < y)), s)) ∧ (∀ s n, c.malloc s n = (true, s)) ∧
      objLinkedIn (.keyed c) s rev = .ok (.ub .badIterator) := by
  let c : Caller (LState ν) Int ν :=
    { key := fun s x => (.ok (kf x), s.clear)
      lt := fun s x y => (.ok (decide (x < y)), s)
      malloc := fun s _ => (true, s) }
  refine ⟨c, fun _ _ => rfl, fun _ _ _ => rfl, fun _ _ => rfl, ?_⟩
  have hlen : s.vals.length = s.size := by simp [LState.vals, LState.size]
  obtain ⟨okb, out, s2, err, hs, hp, _⟩ := CPySort.sortKeyed_spec c s s.vals rev (by omega)
  have hq := empty_moves (c := c) (fun _ _ _ => rfl) (fun _ _ _ h => h) (fun _ _ => rfl)
  have h2 := hp.length_eq
  rw [hlen] at h2
  have hpos : 0 < s.size := by
    unfold LState.size
    exact List.length_pos_iff.2 hne
  have hempty : s2.nodes = [] := by
    cases hv : s.vals with
    | nil => rw [hv] at hlen; simp at hlen; omega
    | cons x xs =>
      rw [hv] at hs
      exact CPySort.sortKeyed_after_key hq (fun _ _ => rfl) _ _ _ _ _ _ _ _ (fun _ _ => rfl) hs rfl
  unfold objLinkedIn
  show (do let (_, slots, s2, err) ← sortKeyed c s s.vals rev; _) = _
  simp only [hs, bind, Except.bind, pure, Except.pure]
  rw [rewrite_short (by unfold LState.size at *; rw [hempty]; simpa using by omega)]

/-! ## Object array lists: sorted in place -/

/-- If the key function does not change the list, the key loop reads exactly the list's elements. Missing: key functions
that do; the comparisons. -/
theorem C37_object_array_keys_partial (c : Caller σ κ ν) (vec : σ → OVec ν) (env : σ)
    (hk : ∀ s x, vec (c.key s x).2 = vec s) :
    keysIn c vec (vec env).blk env 0 (vec env).items.length = .ok (keysOf c env (vec env).items) := by
  have := keysIn_eq c vec (vec env) (fun s x h => (hk s x).trans h) (vec env).items.length 0 env rfl (by omega)
  simpa using this

/-- The property fails: with a full vector of at least two elements, a key function that appends to the list makes the
key loop read freed memory. -/
theorem C37_object_array_append_uaf (grow : Nat → Nat) (v : OVec ν) (kf : ν → κ) (hfull : v.items.length = v.cap)
    (h2 : 2 ≤ v.items.length) (y : ν) (c : Caller (OVec ν) κ ν) (hc : ∀ s x, c.key s x = (.ok (kf x), s.push grow y)) :
    keysIn c id v.blk v 0 v.items.length = .error .useAfterFree := by
  obtain ⟨blk, cap, items⟩ := v
  match items, h2 with
  | a :: b :: rest, _ =>
    simp only [List.length_cons] at hfull
    unfold keysIn
    simp only [OVec.access, id, ne_eq, not_true_eq_false, if_false, List.getElem?_cons_zero, bind, Except.bind, hc,
      List.length_cons]
    unfold keysIn
    have : ¬ (a :: b :: rest).length < cap := by simp only [List.length_cons]; omega
    simp only [OVec.access, id, OVec.push, if_neg this, ne_eq, bind, Except.bind]
    rw [if_pos (by omega)]

/-! ## The hypotheses can be met -/

section examples

/-- A CPU without extensions, Python 3.12. -/
private def plainCpu : Cfg := ⟨.v312, false, false, false, false⟩

private def twice (cap need : Nat) : Nat := max (2 * cap) need

private def bornTwo : List Ev := [.create 0 (some (.inr (.list [.int 3, .int 1, .int 2]))) 8, .create 1 none 0]

private def two : World := (Store.run plainCpu .i32 twice start bornTwo).getD start

/-- Orders by value; each call of the key function appends to the list `p`. -/
private def logs (p : Nat) : Caller World Int PyLong :=
  { key := fun w x => (.ok x.value, (Store.run plainCpu .i32 twice w [.call p (.append (.int x.value)) 0]).getD w)
    lt := fun w x y => (.ok (decide (x < y)), w)
    malloc := fun w _ => (true, w) }

/-- Key functions that append to another list meet `Conduct … (Elsewhere 0)`, and the sort does its work. -/
example : Conduct plainCpu .i32 twice (Elsewhere 0) (logs 1) := by
  refine ⟨?_, fun _ _ _ => .refl _, fun _ _ => rfl⟩
  intro w x
  show Reach plainCpu .i32 twice (Elsewhere 0) w ((Store.run plainCpu .i32 twice w [.call 1 (.append (.int x.value)) 0]).getD w)
  cases hx : Store.run plainCpu .i32 twice w [.call 1 (.append (.int x.value)) 0] with
  | none => exact .refl _
  | some w' =>
    refine run_reach _ ?_ _ _ hx
    intro e he _ _
    simp only [List.mem_singleton] at he
    subst he
    intro h
    cases h

example : (sortIn .i32 .v312 (logs 1) two 0 false).toOption.map (fun r => (shows 0 r, shows 1 r)) =
    some (.ok (some [1, 2, 3]) (), .ok (some [3, 1, 2]) ()) := by decide +kernel

/-- A key function that appends to the list being sorted while it has room. -/
private def fills : Caller World Int PyLong :=
  { key := fun w x => (.ok x.value, match contents w 0 with
      | none => w
      | some l =>
        match Store.step plainCpu .i32 twice w (.call 0 (.append (.int 7)) 0) with
        | .ok w' _ => if l.length < 8 ∧ contents w' 0 = some (l ++ [7]) then w' else w
        | _ => w)
    lt := fun w x y => (.ok (decide (x < y)), w)
    malloc := fun w _ => (true, w) }

example : Conduct plainCpu .i32 twice (InRoom 0 8) fills := by
  refine ⟨?_, fun _ _ _ => .refl _, fun _ _ => rfl⟩
  intro w x
  simp only [fills]
  split
  · exact .refl _
  · rename_i l hl
    split
    · rename_i w' _ hs
      split
      · rename_i hc
        refine .step _ _ _ (.call 0 (.append (.int 7)) 0) (.refl _) (by rw [hs]; rfl) ⟨(by intro h; cases h), ?_, ?_⟩
        · intro l' hl'
          rw [hl] at hl'
          cases hl'
          have := hc.1
          simp only [promised, reserved, if_true]
          omega
        · intro l' hl'
          rw [hc.2] at hl'
          cases hl'
          have := hc.1
          simp only [List.length_append, List.length_singleton]
          omega
      · exact .refl _
    · exact .refl _

example : Within plainCpu .i32 twice 0 8 two [.call 0 (.append (.int 0)) 0] ∧ contents two 0 = some [3, 1, 2] := by decide

example : (sortIn .i32 .v312 fills two 0 false).toOption.map (shows 0) = some (.ok (some [1, 2, 3, 7, 7, 7]) ()) := by
  decide +kernel

/-- Appending to the list being sorted, beyond its room. -/
example : (sortIn .i32 .v312 (logs 0) ((Store.run plainCpu .i32 twice start
    [.create 0 (some (.inr (.list [.int 3, .int 1, .int 2]))) 0]).getD start) 0 false).toOption.map (shows 0) =
    some (.ub .useAfterFree) := by decide +kernel

/-- A linked list whose callbacks append, and one whose key function clears. -/
private def grows : Caller (LState Int) Int PyLong :=
  { key := fun s x => (.ok x.value, s.push x.value)
    lt := fun s x y => (.ok (decide (x < y)), s)
    malloc := fun s _ => (true, s) }

example : NotBelow 3 grows := ⟨fun s x h => by simp [grows, LState.push, LState.size] at *; omega, fun _ _ _ h => h, fun _ _ => rfl⟩

private def three : LState Int := ⟨[(0, 3), (1, 1), (2, 2)], 3, 0⟩

example : (intLinkedIn .v312 grows three false).toOption.map showsVals = some (.ok [1, 2, 3, 3, 1, 2] ()) := by decide +kernel

end examples

end Verif.Props
