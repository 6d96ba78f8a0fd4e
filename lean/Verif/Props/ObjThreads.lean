import Verif.Lemmas.ObjThreads
import Verif.Spec.GuardObj

/-!
# C66, ObjectArrayList: `reverse` with other threads beside it

`Learnt` and `after` (Spec/ObjThreads.lean) are what happens when every call acts at once.
-/

namespace Verif.Props

open Verif.ObjThreads

variable {cfg : Cfg} {H : OHost} {fuel : Nat}

/-- For every schedule in which no thread uses the list while it is being reversed (other threads may give up references): what
the threads learn, the reference counts, undefined behaviour, and the list once it is not being reversed, are as when every call
acts at once. -/
theorem C66_obj_partial (l : List Obj) (h : Heap) {sch : List Act}
    (hx : ObjThreads.Spec.Exclusive cfg H fuel (ObjThreads.start l h) sch) :
    match ObjThreads.run cfg H fuel (ObjThreads.start l h) sch with
    | .ok (s, xs) => ObjThreads.Spec.Learnt cfg H fuel ⟨l, h⟩ sch xs ∧
        ∃ a, ObjThreads.Spec.after cfg H fuel ⟨l, h⟩ sch = .ok a ∧ s.heap = a.heap ∧
          ((∀ t, s.tasks t = none) → s.list.vec = a.vec)
    | .error u => ObjThreads.Spec.after cfg H fuel ⟨l, h⟩ sch = .error u := by
  have := ObjThreads.sim_run (cfg := cfg) (H := H) (fuel := fuel) sch (ObjThreads.sim_start l h) hx
  cases e : ObjThreads.run cfg H fuel (ObjThreads.start l h) sch with
  | error u => rw [e] at this; exact this
  | ok p =>
    obtain ⟨s, xs⟩ := p
    rw [e] at this
    obtain ⟨h1, a, h2, h3⟩ := this
    exact ⟨h1, a, h2, h3.heap.symm, fun hi => (h3.idle hi).symm⟩

/-- In such a schedule a `reverse` in progress can always be brought to its end by its own thread. -/
theorem C66_obj_reverse_ends (l : List Obj) (h : Heap) {sch : List Act}
    (hx : ObjThreads.Spec.Exclusive cfg H fuel (ObjThreads.start l h) sch) {s : ObjThreads.State} {xs : List ObjThreads.Obs}
    (hr : ObjThreads.run cfg H fuel (ObjThreads.start l h) sch = .ok (s, xs)) {t : Nat} {r : Threads.Rev Obj}
    (ht : s.tasks t = some r) :
    ∃ a k s', ObjThreads.Spec.after cfg H fuel ⟨l, h⟩ sch = .ok a ∧
      ObjThreads.run cfg H fuel s (List.replicate (k + 1) (.tick t)) = .ok (s', List.replicate k .quiet ++ [.ret .none]) ∧
      s'.list = a ∧ ∀ t, s'.tasks t = none := by
  have := ObjThreads.sim_run (cfg := cfg) (H := H) (fuel := fuel) sch (ObjThreads.sim_start l h) hx
  rw [hr] at this
  obtain ⟨-, a, h2, h3⟩ := this
  obtain ⟨q1, q2, tgt, q3, q4⟩ := h3.task t r ht
  refine ⟨a, _, _, h2, ObjThreads.rev_ends _ s r rfl ht q1 q3, ?_, fun t' => ?_⟩
  · obtain ⟨v, hp⟩ := a
    have h4 := h3.heap
    dsimp only at h4 q4
    simp only [ObjThreads.State.list, q4, h4]
  · dsimp only
    by_cases c : t' = t
    · rw [c, Store.upd_same]
    · rw [Store.upd_other _ _ c]
      cases e : s.tasks t' with
      | none => rfl
      | some r' => exact absurd (h3.one _ _ _ _ e ht) c

/-- The property fails: if another thread appends to a list of two or more elements while it is being reversed and the storage is
full, the next access is to freed memory. -/
theorem C66_obj_append_uaf (l : List Obj) (h h' : Heap) (o : Obj) (hl : 2 ≤ l.length) (ho : h.incref o = .ok h') (t : Nat) :
    ObjThreads.run cfg H fuel (ObjThreads.start l h) [.reverse t, .call (.append o), .tick t] = .error .useAfterFree := by
  have e1 : ObjArray.step cfg H fuel ⟨l, h⟩ (.append o) = .ok ⟨l ++ [o], h'⟩ .none := by
    simp only [ObjArray.step, ObjArray.append, ho, withHeap]
  have hd : Threads.rounds l.length (Threads.widths cfg .i64) 0 ≠ [] := by
    intro hd
    have := Threads.tiles_start cfg .i64 l.length
    rw [hd] at this
    simp only [Threads.Tiles] at this
    omega
  simp only [ObjThreads.run, ObjThreads.step, ObjThreads.start, ObjThreads.State.list, List.take_length, e1, ObjThreads.State.put,
    List.length_append, List.length_cons, List.length_nil, Nat.zero_add, Nat.add_one_le_iff, Nat.lt_irrefl, if_false,
    Store.upd_same, if_neg hd, ne_eq, Option.some.injEq]
  rfl

/-- The property fails: if another thread pops the last element while the list is being reversed, the list gets it back without
a reference. When that thread gives its reference up, the list holds a freed object, and the next call that looks at the elements
uses it. -/
theorem C66_obj_pop_dangles {ext : Obj → Nat} {l : List Obj} {x : Obj} {h : Heap} (hb : Balanced ext h (l ++ [x])) (hl : l ≠ [])
    (hx : x ∉ l) (hm : h.imm x = false) (he : ext x = 0) (t : Nat) :
    ∃ k s, ObjThreads.run cfg H fuel (ObjThreads.start (l ++ [x]) h)
        (.reverse t :: .call (.pop none) :: (List.replicate (k + 1) (.tick t) ++ [.release x])) =
        .ok (s, .quiet :: .ret (.obj x) :: (List.replicate k .quiet ++ [.ret .none] ++ [.quiet])) ∧
      s.list.vec = (x :: l.reverse).take l.length ∧ x ∈ s.list.vec ∧ s.heap.live x = false ∧
      ObjArray.step cfg H fuel s.list .toList = .ub .useAfterFree := by
  have hrc : h.rc x = 1 := by
    rw [hb x hm, he, List.count_append, List.count_eq_zero_of_not_mem hx]
    simp
  obtain ⟨y, l', rfl⟩ : ∃ y l', l = y :: l' := by
    cases l with
    | nil => exact absurd rfl hl
    | cons y l' => exact ⟨y, l', rfl⟩
  have e1 : ObjArray.step cfg H fuel ⟨y :: l' ++ [x], h⟩ (.pop none) = .ok ⟨y :: l', h⟩ (.obj x) := by
    simp only [ObjArray.step, ObjArray.pop, List.getLast?_append, List.getLast?_singleton, Option.some_or, List.dropLast_concat]
  let r : Threads.Rev Obj := ⟨some 0, (y :: l' ++ [x]).length, Threads.rounds (y :: l' ++ [x]).length (Threads.widths cfg .i64) 0, .idle⟩
  let s0 : ObjThreads.State := ⟨0, y :: l' ++ [x], (y :: l' ++ [x]).length, h, Store.upd (fun _ => none) t (some r)⟩
  let s1 : ObjThreads.State := ⟨0, y :: l' ++ [x], (y :: l').length, h, Store.upd (fun _ => none) t (some r)⟩
  have g0 : ObjThreads.step cfg H fuel (ObjThreads.start (y :: l' ++ [x]) h) (.reverse t) = .ok (s0, .quiet) := rfl
  have g1 : ObjThreads.step cfg H fuel s0 (.call (.pop none)) = .ok (s1, .ret (.obj x)) := by
    have : s0.list = ⟨y :: l' ++ [x], h⟩ := by
      show (⟨List.take (y :: l' ++ [x]).length (y :: l' ++ [x]), h⟩ : OState) = _
      rw [List.take_length]
    simp only [ObjThreads.step, this, e1]
    have hput : s0.put ⟨y :: l', h⟩ = s1 := by
      show (if (y :: l').length ≤ (y :: l' ++ [x]).length then _ else _) = _
      rw [if_pos (by simp)]
      show (⟨0, y :: l' ++ List.drop (y :: l').length (y :: l' ++ [x]), (y :: l').length, h, _⟩ : ObjThreads.State) = s1
      rw [List.drop_left]
    rw [hput]
  have hI := Threads.revInv_start cfg .i64 (some 0) (n := (y :: l' ++ [x]).length) (cs := y :: l' ++ [x]) (Nat.le_refl _)
  have g2 := ObjThreads.rev_ends (cfg := cfg) (H := H) (fuel := fuel) (t := t) _ s1 r rfl
    (show Store.upd (fun _ => none) t (some r) t = some r from Store.upd_same _ _ _) rfl hI
  have htg : Threads.turned (y :: l' ++ [x]).length (y :: l' ++ [x]) = x :: (y :: l').reverse := by
    unfold Threads.turned
    rw [List.take_length, List.drop_length, List.append_nil, List.reverse_append]
    rfl
  rw [htg] at g2
  have hde : h.decref x = .ok (h.set x 0) := by simp only [Heap.decref, hm, hrc]; rfl
  have g3 : ObjThreads.run cfg H fuel { s1 with cells := x :: (y :: l').reverse, tasks := Store.upd s1.tasks t none } [.release x] =
      .ok ({ s1 with cells := x :: (y :: l').reverse, heap := h.set x 0, tasks := Store.upd s1.tasks t none }, [.quiet]) := by
    refine ObjThreads.run_cons (s' := { s1 with cells := x :: (y :: l').reverse, heap := h.set x 0, tasks := Store.upd s1.tasks t none }) ?_ rfl
    have : s1.heap = h := rfl
    simp only [ObjThreads.step, this, hde]
  refine ⟨_, _, ObjThreads.run_cons g0 (ObjThreads.run_cons g1 (ObjThreads.run_append g2 g3)), rfl, ?_, ?_, ?_⟩
  · show x ∈ List.take (l'.length + 1) (x :: (y :: l').reverse)
    rw [List.take_succ_cons]
    exact List.mem_cons_self
  · show ((h.set x 0).imm x || decide (0 < (h.set x 0).rc x)) = false
    simp [Heap.set, hm]
  · show ObjArray.toList ⟨List.take (l'.length + 1) (x :: (y :: l').reverse), h.set x 0⟩ = _
    have hi : (h.set x 0).incref x = .error .useAfterFree := by simp [Heap.incref, Heap.set, hm]
    rw [List.take_succ_cons]
    simp only [ObjArray.toList, Heap.increfs, hi, withHeap]

/-- The hypotheses are met: a list of two objects that only the list holds. -/
example : ∃ (ext : Obj → Nat) (h : Heap), Balanced ext h ([1] ++ [2]) ∧ (1 : Obj) ≠ 2 ∧ h.imm 2 = false ∧ ext 2 = 0 :=
  ⟨fun _ => 0, ⟨fun _ => false, fun o => [1, 2].count o⟩, fun o _ => by simp, by decide, rfl, rfl⟩

/-- A schedule in which the list is reversed while another thread gives up a reference. -/
example : ObjThreads.Spec.Exclusive cfg H fuel (ObjThreads.start [1, 2] ⟨fun _ => false, fun _ => 2⟩)
    [.reverse 3, .tick 3, .release 1, .tick 3] := by
  refine ⟨fun _ => rfl, ?_⟩
  simp only [ObjThreads.step]
  refine ⟨trivial, ?_⟩
  split
  · trivial
  · refine ⟨trivial, ?_⟩
    split
    · trivial
    · exact ⟨trivial, by split <;> trivial⟩

/-- The same to its end, without vector instructions: the list is reversed. -/
example : ((ObjThreads.run ⟨cfg.py, false, false, false, false⟩ H fuel (ObjThreads.start [1, 2, 3] ⟨fun _ => false, fun _ => 2⟩)
    [.reverse 3, .tick 3, .tick 3, .release 1, .tick 3, .tick 3, .tick 3]).toOption.map fun p => p.1.list.vec) = some [3, 2, 1] := rfl

end Verif.Props
