import Verif.Lemmas.ThreadsRace

/-!
# C66: a call that other threads run beside acts as one step

`Serial` (Spec/Threads.lean) is what Python's own lists do: each call acts at once for all other threads. The code releases the
interpreter lock in `reverse`, `*` and `*=`, and this holds only if no other thread uses the list meanwhile.
-/

namespace Verif.Props

open Verif.Store Verif.Spec Verif.Threads

variable {cfg : Cfg} {K : Kind} {grow : Nat → Nat → Nat}

/-- For every schedule in which no other thread uses a list while it is being reversed, and none changes it while it is being
repeated: what the threads learn, step by step, is what they learn when every call acts at once, and so are all lists that are
not being reversed at the end. Undefined behaviour appears only in calls that have it with no call beside them. -/
theorem C66_partial {sch : List Act} (hx : Exclusive cfg K grow Threads.start sch) :
    match Threads.run cfg K grow Threads.start sch with
    | .ok (s, xs) => ∃ a, Serial cfg K grow ⟨Store.start, fun _ => none⟩ sch xs a ∧
        (∀ o, (∀ t r, s.tasks t ≠ some (.rev o r)) → contents s.w o = contents a.w o) ∧
        ∀ t, s.tasks t ≠ none → a.answers t ≠ none
    | .error u => ∃ pre e post xs a, sch = pre ++ .call e :: post ∧
        Serial cfg K grow ⟨Store.start, fun _ => none⟩ pre xs a ∧ Store.step cfg K grow a.w e = .ub u := by
  have h := sim_run (cfg := cfg) (K := K) (grow := grow) sch sim_start hx
  cases e : Threads.run cfg K grow Threads.start sch with
  | error u => rw [e] at h; exact h
  | ok p =>
    obtain ⟨s, xs⟩ := p
    rw [e] at h
    obtain ⟨a, G, h1, h2⟩ := h
    refine ⟨a, h1, fun o ho => (h2.contents_eq ho).symm, fun t ht => ?_⟩
    cases hk : s.tasks t with
    | none => exact absurd hk ht
    | some k =>
      have := h2.task t k hk
      cases k with
      | rev o r => rw [this.1]; simp
      | mul o size n blk acc => obtain ⟨l, -, -, h3, -⟩ := this; rw [h3]; simp
      | imul o size n => rw [this.2.1]; simp

/-- With no other thread beside it, `reverse` ends after at most two accesses per element, whatever the history. The list is
reversed and the others are as before. -/
theorem C66_reverse_ends {es : List Ev} {w : World} {o : Nat} {l : List Int} (hr : Store.run cfg K grow Store.start es = some w)
    (hl : contents w o = some l) (t : Nat) :
    ∃ k s, k ≤ 2 * l.length ∧ Threads.run cfg K grow ⟨w, fun _ => none⟩ (.reverse t o :: List.replicate (k + 1) (.tick t)) =
      .ok (s, .quiet :: (List.replicate k .quiet ++ [.ret (.ret .none)])) ∧ contents s.w o = some l.reverse ∧
      (∀ p, p ≠ o → contents s.w p = contents w p) ∧ s.tasks t = none := by
  have h := run_wf es _ _ wf_start hr
  cases ho : w.objs o with
  | none => rw [contents_none ho] at hl; cases hl
  | some v =>
    obtain ⟨blk, n⟩ := v
    have hst : Threads.step cfg K grow ⟨w, fun _ => none⟩ (.reverse t o) =
        .ok (⟨w, upd (fun _ => none) t (some (.rev o ⟨blk, n, rounds n (widths cfg K) 0, .idle⟩))⟩, .quiet) := by
      simp only [Threads.step, ho]
    cases blk with
    | none =>
      have hz := h.nul o n ho
      subst hz
      rw [contents_nul ho] at hl
      cases hl
      refine ⟨0, ⟨w, upd (upd (fun _ => none) t (some (.rev o ⟨none, 0, rounds 0 (widths cfg K) 0, .idle⟩))) t none⟩,
        Nat.zero_le _, run_cons hst (run_cons ?_ rfl), contents_nul ho, fun _ _ => rfl, upd_same _ _ _⟩
      simp only [Threads.step]
      unfold tick
      dsimp only
      rw [upd_same]
      dsimp only
      rw [if_pos (by cases K <;> simp [rounds, widths])]
    | some b =>
      obtain ⟨cs, hcs, hle⟩ := h.vec o b n ho
      rw [contents_of ho hcs, Option.some.injEq] at hl
      have hn : l.length = n := by rw [← hl, List.length_take]; omega
      have hI := revInv_start cfg K (some b) hle
      obtain ⟨s', q1, q2, q3, q4, q5⟩ := rev_ends (cfg := cfg) (K := K) (grow := grow) (t := t) (o := o) (b := b) (n := n) _
        ⟨w, upd (fun _ => none) t (some (.rev o ⟨some b, n, rounds n (widths cfg K) 0, .idle⟩))⟩ _ cs rfl (by simp only [upd_same]) rfl rfl hcs hI
      refine ⟨_, s', ?_, run_cons hst q1, ?_, fun p hp => ?_, by rw [q5, upd_same]⟩
      · have := tiles_short _ 0 (by omega) (tiles_start cfg K n)
        unfold Rev.left
        dsimp only
        cases hrd : rounds n (widths cfg K) 0 with
        | nil => exact Nat.zero_le _
        | cons p rest =>
          rw [hrd] at this
          simp only [List.length_cons] at this
          dsimp only
          omega
      · rw [contents_of (by rw [q2]; exact ho) q3, turned,
          List.take_left' (by rw [List.length_reverse, List.length_take]; omega), hl]
      · exact contents_frame (by rw [q2]) (fun c m hc => q4 c (fun ec => by subst ec; exact hp (h.sep _ _ _ _ _ hc ho)))

/-- The property fails: if another thread appends to a list of two or more elements while it is being reversed, often enough for
the list to move, the next access is to freed memory. -/
theorem C66_reverse_append_uaf {es : List Ev} {w : World} {o : Nat} {l : List Int} (hr : Store.run cfg K grow Store.start es = some w)
    (hl : contents w o = some l) (h2 : 2 ≤ l.length) (t : Nat) :
    ∃ k, Threads.run cfg K grow ⟨w, fun _ => none⟩
      (.reverse t o :: (List.replicate k (.call (.call o (.append (.int 0)) 0)) ++ [.tick t])) = .error .useAfterFree := by
  have h := run_wf es _ _ wf_start hr
  cases ho : w.objs o with
  | none => rw [contents_none ho] at hl; cases hl
  | some v =>
    obtain ⟨blk, n⟩ := v
    cases blk with
    | none => rw [contents_nul ho] at hl; cases hl; simp at h2
    | some b =>
      obtain ⟨cs, hcs, hle⟩ := h.vec o b n ho
      rw [contents_of ho hcs, Option.some.injEq] at hl
      have hn : l.length = n := by rw [← hl, List.length_take]; omega
      obtain ⟨w1, hr1, hn1, -⟩ := append_moves (cfg := cfg) (K := K) (grow := grow) (cs.length - n) w o b n cs h ho hcs rfl
      obtain ⟨xs, hx⟩ := run_calls (upd (fun _ => none) t (some (.rev o ⟨some b, n, rounds n (widths cfg K) 0, .idle⟩))) hr1
      rw [List.map_replicate] at hx
      have hst : Threads.step cfg K grow ⟨w, fun _ => none⟩ (.reverse t o) =
          .ok (⟨w, upd (fun _ => none) t (some (.rev o ⟨some b, n, rounds n (widths cfg K) 0, .idle⟩))⟩, .quiet) := by
        simp only [Threads.step, ho]
      refine ⟨_, run_error (as := .reverse t o :: _) (run_cons hst hx) ?_⟩
      simp only [Threads.step]
      unfold tick
      dsimp only
      rw [upd_same]
      dsimp only
      rw [if_neg, hn1]
      intro hd
      have := tiles_start cfg K n
      rw [hd] at this
      simp only [Tiles] at this
      omega

/-- The property fails: for every list that is not its own reverse there is a moment at which another thread finds neither the
list nor its reverse. -/
theorem C66_reverse_torn {es : List Ev} {w : World} {o : Nat} {l : List Int} (hr : Store.run cfg K grow Store.start es = some w)
    (hl : contents w o = some l) (hne : l ≠ l.reverse) (t : Nat) :
    ∃ k s m, Threads.run cfg K grow ⟨w, fun _ => none⟩ (.reverse t o :: List.replicate k (.tick t)) =
      .ok (s, .quiet :: List.replicate k .quiet) ∧ contents s.w o = some m ∧ m ≠ l ∧ m ≠ l.reverse := by
  have h := run_wf es _ _ wf_start hr
  cases ho : w.objs o with
  | none => rw [contents_none ho] at hl; cases hl
  | some v =>
    obtain ⟨blk, n⟩ := v
    cases blk with
    | none => rw [contents_nul ho] at hl; cases hl; simp at hne
    | some b =>
      obtain ⟨cs, hcs, hle⟩ := h.vec o b n ho
      rw [contents_of ho hcs, Option.some.injEq] at hl
      have hst : Threads.step cfg K grow ⟨w, fun _ => none⟩ (.reverse t o) =
          .ok (⟨w, upd (fun _ => none) t (some (.rev o ⟨some b, n, rounds n (widths cfg K) 0, .idle⟩))⟩, .quiet) := by
        simp only [Threads.step, ho]
      have htk : (turned n cs).take n = l.reverse := by
        rw [turned, List.take_left' (by rw [List.length_reverse, List.length_take]; omega), hl]
      have hcn : cs ≠ turned n cs := by
        intro e
        rw [← e, hl] at htk
        exact hne htk
      obtain ⟨k, s', cs', q1, q2, q3, q4, q5, q6⟩ := torn (cfg := cfg) (K := K) (grow := grow) (t := t) (o := o) (b := b) hcn _
        ⟨w, upd (fun _ => none) t (some (.rev o ⟨some b, n, rounds n (widths cfg K) 0, .idle⟩))⟩ _ rfl (by simp only [upd_same]) rfl rfl hcs
        (revInv_start cfg K (some b) hle)
      have ext : ∀ ds : List Int, cs'.take n = ds.take n → (∀ p, n ≤ p → ds[p]? = (turned n cs)[p]?) → cs' = ds := by
        intro ds e1 e2
        apply List.ext_getElem?
        intro p
        by_cases hp : p < n
        · have := congrArg (fun z => z[p]?) e1
          simpa only [List.getElem?_take_of_lt hp] using this
        · rw [q6 p (by omega), e2 p (by omega)]
      refine ⟨k, s', cs'.take n, run_cons hst q1, contents_of (by rw [q2]; exact ho) q3, fun e => ?_, fun e => ?_⟩
      · rw [← hl] at e
        exact q4 (ext cs e (fun p hp => by rw [turned_get hle, if_neg (by omega)]))
      · rw [← htk] at e
        exact q5 (ext _ e (fun _ _ => rfl))

/-- The property fails: an element that another thread pops while the list is being reversed is still in the list afterwards,
and the first element is gone, which no order of the two calls gives unless all elements are equal. -/
theorem C66_reverse_pop {es : List Ev} {w : World} {o : Nat} {l : List Int} {x y : Int} (hr : Store.run cfg K grow Store.start es = some w)
    (hl : contents w o = some (x :: (l ++ [y]))) (t : Nat) :
    ∃ k s, Threads.run cfg K grow ⟨w, fun _ => none⟩
      (.reverse t o :: .call (.call o (.pop none) 0) :: List.replicate (k + 1) (.tick t)) =
        .ok (s, .quiet :: .ret (.ret (.int (box K cfg.py y))) :: (List.replicate k .quiet ++ [.ret (.ret .none)])) ∧
      contents s.w o = some (y :: l.reverse) := by
  have h := run_wf es _ _ wf_start hr
  cases ho : w.objs o with
  | none => rw [contents_none ho] at hl; cases hl
  | some v =>
    obtain ⟨blk, n⟩ := v
    cases blk with
    | none => rw [contents_nul ho] at hl; cases hl
    | some b =>
      obtain ⟨cs, hcs, hle⟩ := h.vec o b n ho
      rw [contents_of ho hcs, Option.some.injEq] at hl
      have hn : n = l.length + 2 := by
        have := congrArg List.length hl
        simp only [List.length_take, List.length_cons, List.length_append, List.length_nil] at this
        omega
      have hst : Threads.step cfg K grow ⟨w, fun _ => none⟩ (.reverse t o) =
          .ok (⟨w, upd (fun _ => none) t (some (.rev o ⟨some b, n, rounds n (widths cfg K) 0, .idle⟩))⟩, .quiet) := by
        simp only [Threads.step, ho]
      have hdl : (x :: (l ++ [y])).dropLast = x :: l := by
        rw [← List.cons_append, List.dropLast_concat]
      have hpop : Store.step cfg K grow w (.call o (.pop none) 0) =
          .ok { w with mem := upd w.mem b (some cs), objs := upd w.objs o (some ⟨some b, l.length + 1⟩) }
            (.ret (.int (box K cfg.py y))) := by
        have hp : ArrayList.step cfg K (cs.take n) (.pop none) = .ok (x :: l) (.int (box K cfg.py y)) := by
          rw [hl]
          simp only [ArrayList.step, ArrayList.pop]
          rw [← List.cons_append, List.getLast?_concat, List.dropLast_concat]
        have hcs2 : (x :: l) ++ cs.drop (x :: l).length = cs := by
          have : x :: l = cs.take (l.length + 1) := by
            rw [← hdl, ← hl, List.dropLast_eq_take, List.take_take, List.length_take]
            congr 1
            omega
          rw [List.length_cons, this, List.take_append_drop]
        simp only [Store.step, callOp, ho, cells, hcs, hp]
        unfold put
        rw [if_pos (by rw [hl]; simp only [reserved, List.length_cons, List.length_append, List.length_nil]; omega)]
        simp only [hcs2]
        rfl
      obtain ⟨s', q1, q2, q3, -, -⟩ := rev_ends (cfg := cfg) (K := K) (grow := grow) (t := t) (o := o) (b := b) (n := n) _
        ⟨{ w with mem := upd w.mem b (some cs), objs := upd w.objs o (some ⟨some b, l.length + 1⟩) },
          upd (fun _ => none) t (some (.rev o ⟨some b, n, rounds n (widths cfg K) 0, .idle⟩))⟩ _ cs rfl (by simp only [upd_same]) rfl rfl
        (by simp only [upd_same]) (revInv_start cfg K (some b) hle)
      refine ⟨_, s', run_cons hst (run_cons (by simp only [Threads.step, hpop]) q1), ?_⟩
      rw [contents_of (by rw [q2]; exact upd_same _ _ _) q3, turned, hl, List.reverse_cons, List.reverse_append]
      simp [List.length_reverse]

/-- `l *= 1` gives the list back the length it had when the call began: what other threads appended meanwhile is lost, and for
what they took away there are zeros. It acts as one step exactly if the length is the same. -/
theorem C66_imul_length {es es' : List Ev} {w w1 : World} {o : Nat} {l m : List Int} (hr : Store.run cfg K grow Store.start es = some w)
    (hl : contents w o = some l) (hr1 : Store.run cfg K grow w es' = some w1) (hm : contents w1 o = some m) (t : Nat) :
    ∃ s xs, Threads.run cfg K grow ⟨w, fun _ => none⟩ (.imul t o 1 :: (es'.map .call ++ [.tick t])) =
        .ok (s, .quiet :: (xs ++ [.ret (.ret .self)])) ∧
      contents s.w o = some (m.take l.length ++ List.replicate (l.length - m.length) 0) ∧
      (contents s.w o = some m ↔ m.length = l.length) := by
  have h := run_wf es _ _ wf_start hr
  have h1 := run_wf es' _ _ h hr1
  cases ho : w.objs o with
  | none => rw [contents_none ho] at hl; cases hl
  | some v =>
    cases ho1 : w1.objs o with
    | none => rw [contents_none ho1] at hm; cases hm
    | some v1 =>
      obtain ⟨l', g1, g2⟩ := contents_some h ho
      rw [hl] at g1
      cases g1
      obtain ⟨m', g3, g4⟩ := contents_some h1 ho1
      rw [hm] at g3
      cases g3
      obtain ⟨cs, hcs⟩ := cells_of h1 ho1
      have hmt : m = cs.take v1.size := by
        have : contents w1 o = some (cs.take v1.size) := by simp only [contents, ho1, hcs, Option.map_some]
        rw [hm] at this
        exact Option.some.inj this
      obtain ⟨xs, hx⟩ := run_calls (upd (fun _ => none) t (some (.imul o v.size 1))) hr1
      have hst : Threads.step cfg K grow ⟨w, fun _ => none⟩ (.imul t o 1) =
          .ok (⟨w, upd (fun _ => none) t (some (.imul o v.size 1))⟩, .quiet) := by
        simp only [Threads.step, ho]
      have htk : Threads.step cfg K grow ⟨w1, upd (fun _ => none) t (some (.imul o v.size 1))⟩ (.tick t) =
          .ok (⟨resized grow w1 o v1 cs (v.size * 1), upd (upd (fun _ => none) t (some (.imul o v.size 1))) t none⟩,
            .ret (.ret .self)) := by
        simp only [Threads.step]
        unfold tick
        dsimp only
        rw [upd_same]
        dsimp only
        rw [ho1]
        dsimp only
        rw [hcs]
        dsimp only
        rw [if_pos (.inl (Nat.le_refl 1))]
      have hfin : contents (resized grow w1 o v1 cs (v.size * 1)) o =
          some (m.take l.length ++ List.replicate (l.length - m.length) 0) := by
        unfold resized
        rw [put_self hcs, ← hmt, Nat.mul_one, ← g2, ← g4]
        rw [← hmt, ← g4, List.length_append, List.length_take, List.length_replicate]
        omega
      refine ⟨_, xs, run_cons hst (run_append hx (run_cons htk rfl)), hfin, ?_⟩
      dsimp only
      rw [hfin, Option.some.injEq]
      constructor
      · intro e
        have := congrArg List.length e
        rw [List.length_append, List.length_take, List.length_replicate] at this
        omega
      · intro e
        rw [← e, List.take_length, Nat.sub_self, List.replicate_zero, List.append_nil]

/-- The property fails: an element another thread appends while `l *= 1` runs is lost. -/
theorem C66_imul_loses {es : List Ev} {w : World} {o : Nat} {l : List Int} (hr : Store.run cfg K grow Store.start es = some w)
    (hl : contents w o = some l) (t : Nat) :
    ∃ s, Threads.run cfg K grow ⟨w, fun _ => none⟩ [.imul t o 1, .call (.call o (.append (.int 0)) 0), .tick t] =
        .ok (s, [.quiet, .ret (.ret .none), .ret (.ret .self)]) ∧ contents s.w o = some l := by
  have h := run_wf es _ _ wf_start hr
  cases ho : w.objs o with
  | none => rw [contents_none ho] at hl; cases hl
  | some v =>
    obtain ⟨cs, hcs⟩ := cells_of h ho
    have hlt : contents w o = some (cs.take v.size) := by simp only [contents, ho, hcs, Option.map_some]
    rw [hl, Option.some.injEq] at hlt
    have hap : Store.step cfg K grow w (.call o (.append (.int 0)) 0) =
        .ok (put grow w o v cs (l ++ [0]) (max (l ++ [0]).length (l.length + 0))) (.ret .none) := by
      simp only [Store.step, callOp, ho, hcs, append_zero, reserved, ← hlt]
    have hr1 : Store.run cfg K grow w [.call o (.append (.int 0)) 0] =
        some (put grow w o v cs (l ++ [0]) (max (l ++ [0]).length (l.length + 0))) := by
      simp only [Store.run, hap, Out.state?]
    have hm := put_self (grow := grow) (o := o) hcs (Nat.le_max_left (l ++ [0]).length (l.length + 0))
    obtain ⟨s, xs, q1, q2, -⟩ := C66_imul_length hr hl hr1 hm t
    refine ⟨s, ?_, ?_⟩
    · have q3 : Threads.run cfg K grow ⟨w, fun _ => none⟩ [.imul t o 1, .call (.call o (.append (.int 0)) 0), .tick t] =
          .ok (s, .quiet :: (xs ++ [.ret (.ret .self)])) := q1
      rw [q3]
      simp only [Threads.run, Threads.step, ho, hap] at q3
      cases e : tick grow ⟨put grow w o v cs (l ++ [0]) (max (l ++ [0]).length (l.length + 0)),
          upd (fun _ => none) t (some (.imul o v.size 1))⟩ t with
      | error u => rw [e] at q3; cases q3
      | ok p =>
        rw [e] at q3
        simp only [Except.ok.injEq, Prod.mk.injEq, List.cons.injEq, true_and] at q3
        obtain ⟨-, q4⟩ := q3
        cases xs with
        | nil => simp at q4
        | cons z zs =>
          cases zs with
          | nil => simp only [List.cons_append, List.nil_append, List.cons.injEq] at q4; rw [← q4.1]; rfl
          | cons z' zs => simp at q4
    · rw [q2]
      simp

/-- The property fails: if another thread appends to a list of two or more elements while it is being repeated, often enough for
the list to move, the next access is to freed memory. -/
theorem C66_mul_append_uaf {es : List Ev} {w : World} {o n : Nat} {l : List Int} (hr : Store.run cfg K grow Store.start es = some w)
    (hl : contents w o = some l) (h2 : 2 ≤ l.length) (hn : 0 < n) (t : Nat) :
    ∃ k, Threads.run cfg K grow ⟨w, fun _ => none⟩
      (.mul t o n :: .tick t :: (List.replicate k (.call (.call o (.append (.int 0)) 0)) ++ [.tick t])) = .error .useAfterFree := by
  have h := run_wf es _ _ wf_start hr
  cases ho : w.objs o with
  | none => rw [contents_none ho] at hl; cases hl
  | some v =>
    obtain ⟨blk, m⟩ := v
    cases blk with
    | none => rw [contents_nul ho] at hl; cases hl; simp at h2
    | some b =>
      obtain ⟨cs, hcs, hle⟩ := h.vec o b m ho
      rw [contents_of ho hcs, Option.some.injEq] at hl
      have hm : l.length = m := by rw [← hl, List.length_take]; omega
      have hmn : 2 ≤ m * n := Nat.le_trans (by omega) (Nat.le_mul_of_pos_right m hn)
      obtain ⟨w1, hr1, hn1, -⟩ := append_moves (cfg := cfg) (K := K) (grow := grow) (cs.length - m) w o b m cs h ho hcs rfl
      have hst : Threads.step cfg K grow ⟨w, fun _ => none⟩ (.mul t o n) =
          .ok (⟨w, upd (fun _ => none) t (some (.mul o m n none []))⟩, .quiet) := by
        simp only [Threads.step, ho]
      have hc0 : cs[0]? = some (cs[0]'(by omega)) := List.getElem?_eq_getElem _
      have htk : Threads.step cfg K grow ⟨w, upd (fun _ => none) t (some (.mul o m n none []))⟩ (.tick t) =
          .ok (⟨w, upd (upd (fun _ => none) t (some (.mul o m n none []))) t (some (.mul o m n (some b) [cs[0]'(by omega)]))⟩,
            .quiet) := by
        simp only [Threads.step]
        unfold tick
        dsimp only
        rw [upd_same]
        dsimp only
        rw [if_neg (by simp only [List.length_nil]; omega), ho]
        simp only [List.length_nil, Nat.zero_mod, if_true, hcs, hc0, List.nil_append]
      obtain ⟨xs, hx⟩ := run_calls (upd (upd (fun _ => none) t (some (.mul o m n none []))) t
        (some (.mul o m n (some b) [cs[0]'(by omega)]))) hr1
      rw [List.map_replicate] at hx
      refine ⟨_, run_error (as := .mul t o n :: .tick t :: _) (run_cons hst (run_cons htk hx)) ?_⟩
      have hne : w1.objs o ≠ none := appends_alive _ (by rw [ho]; simp) hr1
      simp only [Threads.step]
      unfold tick
      dsimp only
      rw [upd_same]
      dsimp only
      rw [if_neg (by simp only [List.length_cons, List.length_nil]; omega)]
      cases ho1 : w1.objs o with
      | none => exact absurd ho1 hne
      | some v1 =>
        simp only [List.length_cons, List.length_nil, Nat.zero_add]
        rw [Nat.mod_eq_of_lt (by omega), if_neg (by omega)]
        simp only [hn1]

section examples

/-- A CPU without extensions, Python 3.12. -/
private def oldCpu : Cfg := ⟨.v312, false, false, false, false⟩

/-- Two threads, two lists: one is reversed while the other is appended to, repeated and copied. -/
private def both : List Act :=
  [.call (.create 0 (some (.inr (.list [.int 1, .int 2, .int 3]))) 0), .call (.create 1 none 0), .reverse 7 0, .tick 7,
    .call (.call 1 (.append (.int 5)) 0), .tick 7, .mul 8 1 2, .tick 7, .tick 8, .tick 7, .call (.copy 1 2), .tick 7]

private theorem excl_cons {s s' : State} {a : Act} {as : List Act} {x : Obs} (h1 : Exclusive1 s a)
    (h2 : Threads.step cfg K grow s a = .ok (s', x)) (h3 : Exclusive cfg K grow s' as) : Exclusive cfg K grow s (a :: as) := by
  refine ⟨h1, ?_⟩
  rw [h2]
  exact h3

example : Exclusive oldCpu .i32 (fun _ n => n) Threads.start both := by
  refine excl_cons (fun t k h => by cases h) rfl ?_
  refine excl_cons (fun t k h => by cases h) rfl ?_
  refine excl_cons ⟨rfl, by decide, fun t k h => by cases h⟩ rfl ?_
  refine excl_cons trivial rfl ?_
  refine excl_cons (fun t k h => ?_) rfl ?_
  · by_cases e : t = 7
    · subst e
      cases h
      exact ⟨(by decide : ¬ (1 = 0)), fun o r he => by cases he; exact (by decide : ¬ (1 = 0))⟩
    · exact absurd h (by simp [upd, e, Threads.start])
  refine excl_cons trivial rfl ?_
  refine excl_cons ⟨rfl, by decide, fun t r h => ?_⟩ rfl ?_
  · by_cases e : t = 7
    · subst e
      cases h
    · exact absurd h (by simp [upd, e, Threads.start])
  refine excl_cons trivial rfl ?_
  refine excl_cons trivial rfl ?_
  refine excl_cons trivial rfl ?_
  refine excl_cons (fun t k h => ?_) rfl ?_
  · by_cases e : t = 7
    · subst e
      cases h
      exact ⟨(by decide : ¬ (2 = 0)), fun o r he => by cases he; exact (by decide : ¬ (1 = 0 ∨ 2 = 0))⟩
    · by_cases e' : t = 8
      · subst e'
        cases h
        exact ⟨(by decide : ¬ (2 = 1)), fun o r he => by cases he⟩
      · exact absurd h (by simp [upd, e, e', Threads.start])
  exact ⟨trivial, trivial⟩

example : (Threads.run oldCpu .i32 (fun _ n => n) Threads.start both).toOption.map
    (fun p => (contents p.1.w 0, contents p.1.w 2, p.2)) =
    some (some [3, 2, 1], some [5], [.ret .none, .ret .none, .quiet, .quiet, .ret (.ret .none), .quiet, .quiet, .quiet, .quiet,
      .quiet, .ret .none, .ret (.ret .none)]) := by
  decide

/-- Histories for the theorems above. -/
private def made (l : List Arg) : List Ev := [.create 0 (some (.inr (.list l))) 0]

example : (Store.run oldCpu .i32 (fun _ n => n) Store.start (made [.int 1, .int 2, .int 3])).map (contents · 0) =
    some (some [1, 2, 3]) := by
  decide

example : ([1, 2, 3] : List Int) ≠ [1, 2, 3].reverse := by decide

/-- One store later: the last element is at both ends. -/
example : (Threads.run oldCpu .i32 (fun _ n => n) Threads.start
    ((made [.int 1, .int 2, .int 3]).map .call ++ [.reverse 7 0, .tick 7, .tick 7, .tick 7])).toOption.map
      (fun p => contents p.1.w 0) = some (some [3, 2, 3]) := by
  decide

end examples

end Verif.Props
